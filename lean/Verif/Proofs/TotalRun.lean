import Verif.Proofs.TotalStep
import Verif.Proofs.StepForward
/-
  C117: with sensible parameters a step of a fit state succeeds, and leads to the end or to a fit state.
-/
set_option linter.unusedSectionVars false
namespace PyFlowGo
open Spec

variable {g : Integrator ℝ} {x0 : ℝ}

/-- What a run needs besides a fit state. -/
structure Ready (g : Integrator ℝ) (w : World ℝ) : Prop where
  depth : 0 < w.terrain.depth
  rate : w.iteration ≠ 0 → 0 < w.effusionRate
  flux : g.massConservation = true → ∃ fr, w.fluxRate = some fr

theorem stop_total {t : Terrain ℝ} (hg : Sensible g t x0) (hd : 0 < t.depth) (s : FlowState ℝ) (hp : x0 ≤ s.pos) (h0 : 0 ≤ s.crystal) :
    ∃ b, stopTest g t s = .ok b := by
  obtain ⟨nc, hnc⟩ := compat_total x0 _ _ hg.crystals s hp h0
  obtain ⟨q, hq, _⟩ := yield_total (g := g) h0
  obtain ⟨b, hb, _⟩ := stress_total hg hp hd
  have hnc' : g.models.lava.notCompatible s = .ok nc := hnc
  unfold stopTest
  split
  · exact ⟨_, rfl⟩
  · rw [hnc', ok_bind]
    split
    · exact ⟨_, rfl⟩
    · have : g.models.lava.yieldNotCompatible t s = .ok (leB b q) := by
        unfold Lava.yieldNotCompatible
        first
          | (rw [hb, ok_bind, hq, ok_bind]; rfl)
          | (rw [hq, ok_bind, hb, ok_bind]; rfl)
      rw [this, ok_bind]
      split <;> exact ⟨_, rfl⟩

theorem update_forward (g : Integrator ℝ) (d : StepData ℝ) (w : World ℝ) (a b : ℝ) (h1 : PyNum.div g.dx d.v = .ok a)
    (h2 : PyNum.div (3.0 * d.v) d.depth = .ok b) :
    stepUpdate g d w = (.ok (), { w with st := { crystal := d.newPhi, temp := d.newTemp, pos := w.st.pos + g.dx, time := w.st.time + a, strain := b }, iteration := w.iteration + 1 }) := by
  unfold stepUpdate
  rw [PyM.bind_of_ok (PyM.modify_apply _ _), lift_bind h1, PyM.bind_of_ok (PyM.modify_apply _ _), lift_bind h2, PyM.modify_apply]

theorem step_total {w : World ℝ} (hg : Sensible g w.terrain x0) (hs : Fit g w.terrain x0 w.st) (hr : Ready g w) :
    ∃ w', singleStep g w = (.ok (), w') := by
  obtain ⟨k, hk⟩ := velocity_total hg hr.depth hs
  obtain ⟨v, x, c, hv, hc, hvk⟩ := hk w.st.strain
  have hv : g.models.lava.meanVelocity w.terrain w.st = .ok (v, x) := hv
  by_cases hle : leB v 0.0 = true
  · unfold singleStep
    rw [PyM.bind_of_ok (meanVelocityM_forward hv), if_pos hle]
    exact ⟨_, rfl⟩
  have hv0 : 0 < v := by
    rw [leB_real] at hle; norm_num at hle; exact hle
  have hk0 : 0 < k := by
    rw [hvk] at hv0; exact (pos_iff_pos_of_mul_pos hv0).mp hc
  have hm : Moves g w.terrain w.st := fun y => by
    obtain ⟨v', x', c', h1, h2, h3⟩ := hk y
    exact ⟨v', x', h1, by rw [h3]; exact mul_pos h2 hk0⟩
  have hE : 0 < w.stepEffusion v := by
    unfold World.stepEffusion
    by_cases hi : w.iteration = 0
    · rw [if_pos (by simpa using hi)]
      exact mul_pos (mul_pos hv0 hg.width) hr.depth
    · rw [if_neg (by simpa using hi)]
      exact hr.rate hi
  have hrho := density_pos hg hs.downstream
  obtain ⟨width, hwidth⟩ : ∃ width, channelWidth g.massConservation (w.stepEffusion v) w.fluxRate v w.terrain.depth (g.models.lava.density w.st) = .ok width := by
    have hne : v * w.terrain.depth ≠ 0 := (mul_pos hv0 hr.depth).ne'
    unfold channelWidth
    cases hmass : g.massConservation with
    | false => exact ⟨_, div_of_ne hne⟩
    | true =>
      obtain ⟨fr, hfr⟩ := hr.flux hmass
      rw [hfr]
      refine ⟨fr / (v * w.terrain.depth) / g.models.lava.density w.st, ?_⟩
      simp only [if_true]
      rw [div_of_ne hne, ok_bind, div_of_ne hrho.ne']
  obtain ⟨slope, hslope⟩ := hg.slopes w.st.pos
  obtain ⟨heat, w1, hheat, hst1⟩ := runs_heat hg hr.depth hs hm width
    { w with st := { w.st with strain := x }, effusionRate := w.stepEffusion v } ⟨rfl, x, rfl⟩
  obtain ⟨rate, hr0, hrate⟩ := hg.rate w.st hs.downstream hs.hot
  have hden : w.stepEffusion v * g.models.lava.density w.st * g.models.lava.latentHeat * rate ≠ 0 :=
    (mul_pos (mul_pos (mul_pos hE hrho) hg.latent) hr0).ne'
  have hdt := div_of_ne (x := -heat) hden
  have hcomp := stepCompute_forward g w v x width slope heat rate _ w1 hwidth hslope hheat hrate hdt
  unfold singleStep
  rw [PyM.bind_of_ok (meanVelocityM_forward hv), if_neg hle, PyM.bind_of_ok hcomp, PyM.bind_of_ok (PyM.get_apply _)]
  dsimp only
  split
  · exact ⟨_, rfl⟩
  rename_i hphi
  obtain ⟨_, w2, hlog, hst2⟩ := runs_stepLog hg hr.depth hs hm
    { v := v, depth := w.terrain.depth, width := width, slope := slope, heat := heat, rate := rate,
      dtempDx := -heat / (w.stepEffusion v * g.models.lava.density w.st * g.models.lava.latentHeat * rate),
      dtempDt := (-(-heat / (w.stepEffusion v * g.models.lava.density w.st * g.models.lava.latentHeat * rate))) * v * 60.0,
      dphiDx := -heat / (w.stepEffusion v * g.models.lava.density w.st * g.models.lava.latentHeat * rate) * (-rate),
      newPhi := w.st.crystal + -heat / (w.stepEffusion v * g.models.lava.density w.st * g.models.lava.latentHeat * rate) * (-rate) * g.dx,
      newTemp := w.st.temp + -heat / (w.stepEffusion v * g.models.lava.density w.st * g.models.lava.latentHeat * rate) * g.dx } w1 hst1
  rw [PyM.bind_of_ok hlog]
  generalize hD : (-heat / (w.stepEffusion v * g.models.lava.density w.st * g.models.lava.latentHeat * rate)) = D at *
  obtain ⟨_, y1, e1⟩ := hst1
  obtain ⟨ht2, y2, e2⟩ := hst2
  rw [leB_real, e1] at hphi
  have hdv : PyNum.div g.dx v = .ok (g.dx / v) := div_of_ne hv0.ne'
  have hds : PyNum.div (3.0 * v) w.terrain.depth = .ok (3.0 * v / w.terrain.depth) := div_of_ne hr.depth.ne'
  rw [PyM.bind_of_ok (update_forward g _ w2 _ _ hdv hds)]
  dsimp only
  obtain ⟨b, hb⟩ := stop_total hg hr.depth
    { crystal := w.st.crystal + D * (-rate) * g.dx, temp := w.st.temp + D * g.dx, pos := w2.st.pos + g.dx,
      time := w2.st.time + g.dx / v, strain := 3.0 * v / w.terrain.depth }
    (by rw [e2]; dsimp only; linarith [hs.downstream, hg.step]) (by dsimp only at hphi ⊢; linarith [hs.crystals])
  rw [stepStop_forward g _ _ rfl b]
  · exact ⟨_, rfl⟩
  · dsimp only
    rw [ht2]
    exact hb

/-- After a step the flow has stopped, or is packed to the limit, or is fit for the next step. -/
theorem step_fit {w w' : World ℝ} (hg : Sensible g w.terrain x0) (hs : Fit g w.terrain x0 w.st) (hr : Ready g w) (hf : w.finished = false)
    (h : singleStep g w = (.ok (), w')) :
    w'.terrain = w.terrain ∧ (w'.finished = true ∨ (AtPacking w'.st g.models.lava.rel ∧ x0 ≤ w'.st.pos ∧ 0 ≤ w'.st.crystal ∧ g.models.cryst.solidTemperature < w'.st.temp ∧
      g.models.lava.notCompatible w'.st = .ok false) ∨ Fit g w'.terrain x0 w'.st ∧ Ready g w') := by
  cases singleStep_ok h with
  | still v x hv hle hw => rw [hw]; exact ⟨rfl, Or.inl rfl⟩
  | noGrowth v x hv hle d w1 es y facts hphi hw =>
    rw [hw]
    refine ⟨?_, Or.inl rfl⟩
    show w1.terrain = _
    rw [facts.touched]; rfl
  | accepted v x hv hle d w1 es y facts hphi visc tc f v2 y2 tho0 thob hvisc htc hv2 hf2 ht0 htb dt strain hdt hst s' hs' stop hstop hw =>
    rw [hw]
    refine ⟨rfl, ?_⟩
    cases stop with
    | true => left; simp
    | false =>
      right
      obtain ⟨q1, q2, q3, q4⟩ := stopTest_false hstop
      have hx : s'.pos = w.st.pos + g.dx := by rw [hs']
      have hc : 0 ≤ s'.crystal := by
        rw [← Bool.not_eq_true, leB_real, not_le] at hphi
        rw [hs']; dsimp only; linarith [hs.crystals]
      have hx0 : x0 ≤ s'.pos := by rw [hx]; linarith [hs.downstream, hg.step]
      have hv0 : 0 < v := by
        rw [← Bool.not_eq_true, leB_real] at hle; norm_num at hle; exact hle
      by_cases hp : AtPacking s' g.models.lava.rel
      · exact Or.inl ⟨hp, hx0, hc, q1, q2⟩
      right
      refine ⟨⟨hx0, hc, q1, q2, hp, ?_⟩, hr.depth, fun _ => ?_, hr.flux⟩
      · intro y hy hsin
        obtain ⟨q, hq, hq0⟩ := yield_total (g := g) hc
        unfold Lava.yieldNotCompatible at q3
        rw [hq, ok_bind] at q3
        have : g.models.lava.basalStress w.terrain s' = .ok 0 := by
          unfold Lava.basalStress
          dsimp only at hy
          rw [hy, ok_bind]
          show Except.ok (_ * Real.sin y) = _
          rw [hsin, mul_zero]
        rw [this, ok_bind] at q3
        have q3 := Except.ok.inj q3
        rw [← Bool.not_eq_true, leB_real] at q3
        exact q3 hq0
      · show 0 < w.stepEffusion v
        unfold World.stepEffusion
        by_cases hi : w.iteration = 0
        · rw [if_pos (by simpa using hi)]
          exact mul_pos (mul_pos hv0 hg.width) hr.depth
        · rw [if_neg (by simpa using hi)]
          exact hr.rate hi

/-- Lava packed exactly to the limit has no viscosity. -/
theorem packed_viscosity {t : Terrain ℝ} (hg : Sensible g t x0) (s : FlowState ℝ) (hp : x0 ≤ s.pos) (h0 : 0 ≤ s.crystal)
    (hT : g.models.cryst.solidTemperature < s.temp) (hc : g.models.lava.notCompatible s = .ok false) (ha : AtPacking s g.models.lava.rel) :
    ∃ e, g.models.lava.bulkViscosity s = .error e := by
  have hrel : ∃ e, g.models.lava.rel.relative s = .error e := by
    have h := hg.crystals
    have hc : g.models.lava.rel.notCompatible s = .ok false := hc
    generalize g.models.lava.rel = m at *
    have std : m ≠ .er → RelValid s m → s.crystal = packingLimit s m → ∃ e, m.relative s = .error e :=
      fun h1 h2 h3 => (C30_accepted_fails_exactly_at_packing m s h1 h2 h0 hc).mpr h3
    cases m with
    | er => exact ha.elim
    | kd φ b => exact std (by simp) h ha
    | mp φ => exact std (by simp) h ha
    | mpMueller rp => exact std (by simp) h ha
    | mader rp => exact h.elim
    | ptp1 ves => exact std (by simp) (h s hp) ha
    | ptp2 ves => exact std (by simp) ⟨h.2 s hp, (h.1 s hp).2⟩ ha
    | ptp3 ves => exact std (by simp) (h s hp) ha
    | bll pm bs bg r t pc ves melt =>
      obtain ⟨h1, h2, h3, h4, h5, h6⟩ := h
      obtain ⟨eta, he, _⟩ := C28_melt_positive melt h5 s (h6 _ hT)
      exact (C30_bll_fails_exactly_at_phimax pm bs bg r t pc ves melt s eta he h3 h1 h2 (h4 s hp).1 (h4 s hp).2 hc).1.mpr ha
    | costa1 p => exact ha.elim
    | costa2 p => exact ha.elim
  obtain ⟨e, he⟩ := hrel
  cases hb : g.models.lava.bulkViscosity s with
  | error e => exact ⟨e, rfl⟩
  | ok mu =>
    obtain ⟨a, b, c, _, h2, _⟩ := (C33_bulk_is_product _ _ _).mp hb
    rw [he] at h2; cases h2

/-- The step of a packed state raises at once and changes nothing. -/
theorem packed_step {w : World ℝ} (h : ∃ e, g.models.lava.bulkViscosity w.st = .error e) : ∃ e, singleStep g w = (.error e, w) := by
  cases hv : g.models.lava.meanVelocity w.terrain w.st with
  | ok p =>
    obtain ⟨v, x⟩ := p
    obtain ⟨q, b, mu, _, _, hmu, _⟩ := (meanVelocity_ok_iff _ _ _ _ _).mp hv
    obtain ⟨e, he⟩ := h
    rw [he] at hmu; cases hmu
  | error e =>
    refine ⟨e, ?_⟩
    unfold singleStep
    rw [PyM.bind_of_error (e := e) (s1 := w)]
    unfold meanVelocityM
    rw [hv]

/-- A loop that starts fit ends well, or raises in a state that is packed to the limit; nothing else makes it raise. -/
theorem loop_total (n : Nat) (w : World ℝ) (hg : Sensible g w.terrain x0) (hs : Fit g w.terrain x0 w.st) (hr : Ready g w)
    (r : Except Err Unit) (w' : World ℝ) (h : runLoop g n w = some (r, w')) :
    w'.terrain = w.terrain ∧ (r = .ok () ∧ w'.finished = true ∨ (∃ e, r = .error e) ∧ AtPacking w'.st g.models.lava.rel) := by
  induction n generalizing w with
  | zero =>
    unfold runLoop at h
    split at h
    · rename_i hf
      cases h
      exact ⟨rfl, Or.inl ⟨rfl, hf⟩⟩
    · cases h
  | succ n ih =>
    unfold runLoop at h
    split at h
    · rename_i hf
      cases h
      exact ⟨rfl, Or.inl ⟨rfl, hf⟩⟩
    rename_i hf
    obtain ⟨w1, h1⟩ := step_total hg hs hr
    rw [h1] at h
    dsimp only at h
    obtain ⟨ht, hcase⟩ := step_fit hg hs hr (by simpa using hf) h1
    rcases hcase with hfin | hcase
    · cases n <;> (unfold runLoop at h; rw [if_pos hfin] at h; cases h; exact ⟨ht, Or.inl ⟨rfl, hfin⟩⟩)
    rcases hcase with ⟨hpk, hdown, hcr, hhot, hroom⟩ | ⟨hs1, hr1⟩
    · by_cases hfin : w1.finished = true
      · cases n <;> (unfold runLoop at h; rw [if_pos hfin] at h; cases h; exact ⟨ht, Or.inl ⟨rfl, hfin⟩⟩)
      obtain ⟨e, he⟩ := packed_step (packed_viscosity hg w1.st hdown hcr hhot hroom hpk)
      cases n with
      | zero => unfold runLoop at h; rw [if_neg hfin] at h; cases h
      | succ n =>
        unfold runLoop at h
        rw [if_neg hfin, he] at h
        cases h
        exact ⟨ht, Or.inr ⟨⟨e, rfl⟩, hpk⟩⟩
    · obtain ⟨h2, h3⟩ := ih w1 (by rw [ht]; exact hg) hs1 hr1 h
      exact ⟨h2.trans ht, h3⟩

end PyFlowGo
