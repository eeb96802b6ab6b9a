import Verif.Proofs.Compare
import Verif.Spec.Stronger
/-
  Comparison of two runs of the same lava of which the first is driven harder.
-/
set_option linter.unusedSectionVars false
namespace PyFlowGo
open Spec

/-- More depth and more stress, more speed. -/
theorem bingham_mono {d d' tb tb' mu t0 : ℝ} (hd : 0 < d) (hdd : d ≤ d') (htb : 0 < tb) (hle : tb ≤ tb') (hmu : 0 < mu) (h0 : 0 ≤ t0)
    (hy : t0 ≤ tb) : binghamVelocity d tb mu t0 ≤ binghamVelocity d' tb' mu t0 := by
  have htb' : 0 < tb' := htb.trans_le hle
  have hd' : 0 < d' := hd.trans_le hdd
  have form : ∀ D T : ℝ, 0 < T → binghamVelocity D T mu t0 = D / (3 * mu) * (T - 3 / 2 * t0 + 1 / 2 * (t0 ^ 3 / T ^ 2)) := by
    intro D T hT
    unfold binghamVelocity
    field_simp
  have step1 : binghamVelocity d tb mu t0 ≤ binghamVelocity d' tb mu t0 := by
    unfold binghamVelocity
    rw [bingham_factor]
    have : 0 ≤ t0 / tb := by positivity
    gcongr
  refine step1.trans ?_
  rw [form _ _ htb, form _ _ htb']
  have hq : 0 < d' / (3 * mu) := by positivity
  apply mul_le_mul_of_nonneg_left _ hq.le
  -- t0^3 (1/tb^2 - 1/tb'^2) <= 2 (tb' - tb)
  have key : t0 ^ 3 / tb ^ 2 - t0 ^ 3 / tb' ^ 2 ≤ 2 * (tb' - tb) := by
    rw [div_sub_div _ _ (by positivity) (by positivity), div_le_iff₀ (by positivity)]
    have e : t0 ^ 3 * tb' ^ 2 - tb ^ 2 * t0 ^ 3 = t0 ^ 3 * (tb' + tb) * (tb' - tb) := by ring
    rw [e]
    have hdiff : 0 ≤ tb' - tb := by linarith
    have h3 : t0 ^ 3 * (tb' + tb) ≤ 2 * (tb ^ 2 * tb' ^ 2) := by
      have a1 : t0 ^ 3 ≤ tb ^ 3 := by gcongr
      calc t0 ^ 3 * (tb' + tb) ≤ tb ^ 3 * (tb' + tb') := by gcongr
        _ = 2 * (tb ^ 2 * (tb * tb')) := by ring
        _ ≤ 2 * (tb ^ 2 * tb' ^ 2) := by
            have : tb * tb' ≤ tb' ^ 2 := by nlinarith
            gcongr
    calc t0 ^ 3 * (tb' + tb) * (tb' - tb) ≤ 2 * (tb ^ 2 * tb' ^ 2) * (tb' - tb) := by gcongr
      _ = _ := by ring
  linarith

/-- Fluxes are proportional to the width. -/
theorem fluxIs_scale {m : Models ℝ} {width depth : ℝ} {t : Terrain ℝ} {s : FlowState ℝ} {f : Flux ℝ} {q : ℝ} (c : ℝ)
    (h : FluxIs m width depth t s f q) : FluxIs m (c * width) depth t s f (c * q) := by
  cases f with
  | conduction b p => obtain ⟨h1, rfl⟩ := h; exact ⟨h1, by ring⟩
  | rain a b c' =>
    have h : q = a * b * c' * width := h
    show c * q = a * b * c' * (c * width)
    rw [h]; ring
  | viscous => obtain ⟨mu, v, x, h1, h2, h3, rfl⟩ := h; exact ⟨mu, v, x, h1, h2, h3, by ring⟩
  | convection => obtain ⟨v, x, Tc, h1, h2, h3, h4, h5, rfl⟩ := h; exact ⟨v, x, Tc, h1, h2, h3, h4, h5, by ring⟩
  | snyder => obtain ⟨v, x, Tc, h1, h2, h3, rfl⟩ := h; exact ⟨v, x, Tc, h1, h2, h3, by ring⟩
  | radBasic a b => obtain ⟨v, x, Tc, sg, e, h1, h2, h3, h4, h5, h6, rfl⟩ := h; exact ⟨v, x, Tc, sg, e, h1, h2, h3, h4, h5, h6, by ring⟩
  | radTwoEmi a b c' => obtain ⟨v, x, Tc, sg, e, h1, h2, h3, h4, h5, h6, rfl⟩ := h; exact ⟨v, x, Tc, sg, e, h1, h2, h3, h4, h5, h6, by ring⟩
  | radCont a => obtain ⟨v, x, Tc, sg, e, h1, h2, h3, h4, h5, h6, rfl⟩ := h; exact ⟨v, x, Tc, sg, e, h1, h2, h3, h4, h5, h6, by ring⟩
  | radLin a => obtain ⟨v, x, Tc, sg, e, h1, h2, h3, h4, h5, h6, rfl⟩ := h; exact ⟨v, x, Tc, sg, e, h1, h2, h3, h4, h5, h6, by ring⟩

/-- All fluxes of the harder driven flow, carrying `ca`, against those of the other, carrying `cb`. -/
theorem fluxes_no_more {m : Models ℝ} {A B : Terrain ℝ} {R : ℝ → ℝ → ℝ → Prop} {s : FlowState ℝ} {va xa vb xb ca cb : ℝ}
    (hR : R s.pos s.temp s.crystal) (hva : m.lava.meanVelocity A s = .ok (va, xa)) (hvb : m.lava.meanVelocity B s = .ok (vb, xb))
    (h0 : 0 < vb) (hle : vb ≤ va) (hca : 0 < ca) (hcb : 0 < cb) :
    ∀ (fs : List (Flux ℝ)) (qs : List ℝ), (∀ f ∈ fs, LosesNoMore m A B R f) →
      List.Forall₂ (FluxIs m (cb / (vb * B.depth)) B.depth B s) fs qs →
      ∃ us, List.Forall₂ (FluxIs m (ca / (va * A.depth)) A.depth A s) fs us ∧ us.sum / ca ≤ qs.sum / cb := by
  intro fs qs hf h
  induction h with
  | nil => exact ⟨[], .nil, by simp⟩
  | @cons f q fs qs h1 _ ih =>
    obtain ⟨us, u1, u2⟩ := ih fun f hf' => hf f (by simp [hf'])
    have h1 := fluxIs_scale (1 / cb) h1
    rw [show 1 / cb * (cb / (vb * B.depth)) = 1 / (vb * B.depth) by field_simp] at h1
    obtain ⟨q', k1, k2⟩ := hf f (by simp) s va xa vb xb _ hR hva hvb h0 hle h1
    have k1 := fluxIs_scale ca k1
    rw [show ca * (1 / (va * A.depth)) = ca / (va * A.depth) by ring] at k1
    refine ⟨ca * q' :: us, .cons k1 u1, ?_⟩
    rw [List.sum_cons, List.sum_cons, add_div, add_div]
    have : ca * q' / ca = q' := by field_simp
    rw [this]
    have : 1 / cb * q = q / cb := by ring
    linarith

/-- The velocity of the harder driven lava. -/
theorem driven_velocity {l : Lava ℝ} {A B : Terrain ℝ} {R : ℝ → ℝ → ℝ → Prop} (h : DrivesHarder l A B R) {s : FlowState ℝ}
    (hR : R s.pos s.temp s.crystal) (hphi : 0 ≤ s.crystal) (hmu : ∀ mu, l.bulkViscosity s = .ok mu → 0 < mu) {vb xb : ℝ}
    (hvb : l.meanVelocity B s = .ok (vb, xb)) (hy : l.yieldNotCompatible B s = .ok false) :
    ∃ va xa b a, l.meanVelocity A s = .ok (va, xa) ∧ vb ≤ va ∧ l.basalStress B s = .ok b ∧ l.basalStress A s = .ok a ∧ b ≤ a ∧ 0 < vb := by
  obtain ⟨t0, tb, mu, h0, hb, h1, _, _, _, rfl, _⟩ := (meanVelocity_ok_iff _ _ _ _ _).mp hvb
  have hm := hmu mu h1
  have ht0 : 0 ≤ t0 := by
    obtain ⟨t1, y1, y2, _⟩ := C34_yield_nonneg l.yld s hphi
    have h0 : l.yld.strength s = .ok t0 := h0
    rw [y1] at h0; injection h0 with h0; rw [← h0]; exact y2
  have hlt : t0 < tb := by
    unfold Lava.yieldNotCompatible at hy
    rw [h0, ok_bind, hb, ok_bind, pure_ok_iff, ← Bool.not_eq_true, leB_real] at hy
    exact not_le.mp hy
  have htb : 0 < tb := ht0.trans_lt hlt
  obtain ⟨a, ha, hle⟩ := h.stress s tb hR hb htb
  refine ⟨_, _, tb, a, (meanVelocity_ok_iff _ _ _ _ _).mpr ⟨t0, a, mu, h0, ha, h1, hm.ne', (htb.trans_le hle).ne', (h.deep.trans_le h.depth).ne', rfl, rfl⟩,
    bingham_mono h.deep h.depth htb hle hm ht0 hlt.le, hb, ha, hle, bingham_pos h.deep htb hm ht0 hlt.ne⟩

section
variable {g : Integrator ℝ} {wa wb a b : World ℝ} {Ea Eb r δ K : ℝ} {R R' : ℝ → ℝ → ℝ → Prop}
  {k k' : Nat} {ws vs : Nat → World ℝ} {d e : Nat → RowData}

/-- The flow that is driven harder, or leaves the vent hotter or with fewer crystals, is hotter, row by row. -/
theorem fresher_states (hl : StrainIndependent g.models.lava) (hdx : 0 < g.dx) (hr0 : 0 < r)
    (hrate : ∀ s, g.models.cryst.rate s = .ok r) (hEa : 0 < Ea) (hEb : 0 < Eb) (hL : 0 < g.models.lava.latentHeat)
    (hs1 : wb.st.pos = wa.st.pos) (hs2 : wb.st.temp ≤ wa.st.temp)
    (hs3 : wb.st.crystal - wa.st.crystal = r * (wa.st.temp - wb.st.temp) + δ)
    (hmass : g.massConservation = true → ∃ c, 0 < c ∧ wa.fluxRate = some (c * Ea) ∧ wb.fluxRate = some (c * Eb))
    (hphi : 0 ≤ wb.st.crystal) (hvent : g.models.lava.yieldNotCompatible wb.terrain wb.st = .ok false)
    (hrho : ∀ s, R' s.pos s.temp s.crystal → 0 < g.models.lava.density s)
    (hmu : ∀ s mu, R' s.pos s.temp s.crystal → g.models.lava.bulkViscosity s = .ok mu → 0 < mu)
    (hdrive : DrivesHarder g.models.lava wa.terrain wb.terrain R')
    (hloss : ∀ f ∈ g.models.fluxes, LosesNoMore g.models wa.terrain wb.terrain R' f)
    (hlip : ColderSlowerBy g wa.terrain wa.fluxRate Ea R R' r δ K) (hsmall : g.dx * K ≤ 1)
    (t : RunTable g wa a Ea k ws d) (t' : RunTable g wb b Eb k' vs e)
    (hin : ∀ i, i < k → R (ws i).st.pos (ws i).st.temp (ws i).st.crystal)
    (hin' : ∀ i, i < k' → R' (vs i).st.pos (vs i).st.temp (vs i).st.crystal) :
    ∀ i, i ≤ k → i ≤ k' → (vs i).st.temp ≤ (ws i).st.temp ∧
      (vs i).st.crystal - (ws i).st.crystal = r * ((ws i).st.temp - (vs i).st.temp) + δ := by
  intro i
  induction i with
  | zero => intro _ _; rw [t.start, t'.start]; exact ⟨hs2, hs3⟩
  | succ i ih =>
    intro h1 h2
    obtain ⟨c1, c2⟩ := ih (by omega) (by omega)
    have h1 : i < k := by omega
    have h2 : i < k' := by omega
    have m1 := t.made i h1
    have m2 := t'.made i h2
    have s1 := t.step i h1
    have s2 := t'.step i h2
    have er1 : (d i).rate = r := by have := m1.rate; rw [hrate] at this; injection this with this; exact this.symm
    have er2 : (e i).rate = r := by have := m2.rate; rw [hrate] at this; injection this with this; exact this.symm
    have hpos : (ws i).st.pos = (vs i).st.pos := by rw [t.pos i h1.le, t'.pos i h2.le, hs1]
    have hrho2 := hrho _ (hin' i h2)
    obtain ⟨qs, q1, q2⟩ := t.heat hl i h1
    obtain ⟨us, u1, u2⟩ := t'.heat hl i h2
    have hphik : 0 ≤ (vs i).st.crystal := by
      have := crystals_ge t'.accepted i h2.le
      rw [t'.start] at this
      linarith
    have hyield : g.models.lava.yieldNotCompatible wb.terrain (vs i).st = .ok false := by
      cases i with
      | zero => rw [t'.start]; exact hvent
      | succ j =>
        have := ((C13_accepted_reason g _ _ (t'.accepted j (by omega))).2 (t'.accepted (j + 1) h2).1).2.2.1
        rwa [t'.terrain _ h2.le] at this
    obtain ⟨xb, hvb⟩ := m2.velocity
    obtain ⟨va, xa, tb, ta, hva, hvle, htb, hta, _, hvb0⟩ :=
      driven_velocity hdrive (hin' i h2) hphik (fun mu => hmu _ mu (hin' i h2)) hvb hyield
    have hva0 : 0 < va := hvb0.trans_le hvle
    have hA := hdrive.deep.trans_le hdrive.depth
    -- what the two channels carry
    obtain ⟨ca, cb, hca, hcb, hratio, hwb, hwa1, hwa2⟩ : ∃ ca cb, 0 < ca ∧ 0 < cb ∧ cb * Ea = ca * Eb ∧ (e i).width = cb / ((e i).v * wb.terrain.depth) ∧
        (g.massConservation = false → ca = Ea) ∧
        (g.massConservation = true → ∃ flux, wa.fluxRate = some flux ∧ ca = flux / g.models.lava.density (vs i).st) := by
      cases hm : g.massConservation with
      | false => exact ⟨Ea, Eb, hEa, hEb, mul_comm _ _, m2.volume hm, fun _ => rfl, fun h => (by cases h)⟩
      | true =>
        obtain ⟨c, hc, f1, f2⟩ := hmass hm
        obtain ⟨flux, h3, h4⟩ := m2.mass hm
        rw [f2] at h3
        injection h3 with h3
        refine ⟨c * Ea / g.models.lava.density (vs i).st, c * Eb / g.models.lava.density (vs i).st, by positivity, by positivity, by ring, ?_, fun h => (by cases h),
          fun _ => ⟨_, f1, rfl⟩⟩
        rw [h4, ← h3, div_right_comm]
    rw [hwb] at u1
    obtain ⟨ps, p1, p2⟩ := fluxes_no_more (hin' i h2) hva hvb hvb0 hvle hca hcb _ _ hloss u1
    obtain ⟨slope, hslope⟩ : ∃ sl, wa.terrain.slope (vs i).st.pos = .ok sl := by
      unfold Lava.basalStress at hta
      obtain ⟨sl, h3, _⟩ := bind_ok_iff.mp hta
      exact ⟨sl, h3⟩
    let e0 : RowData := { e i with v := va, vCover := va, width := ca / (va * wa.terrain.depth), heat := ps.sum, slope := slope, basalStress := ta }
    have made0 : RowMade g wa.terrain wa.fluxRate Ea (vs i).st e0 := by
      refine ⟨⟨xa, hva⟩, hva0, hA.ne', ⟨xa, ?_⟩, ?_, ?_, hslope, m2.viscosity, m2.crust, m2.yieldStrength, hta, m2.rate, ?_⟩
      · rw [meanVelocity_strain _ hl]; exact hva
      · intro hm; show ca / _ = _; rw [hwa1 hm]
      · intro hm
        obtain ⟨flux, h3, h4⟩ := hwa2 hm
        refine ⟨flux, h3, ?_⟩
        show ca / (va * wa.terrain.depth) = flux / (va * wa.terrain.depth) / _
        rw [h4, div_right_comm]
      · show Ea * _ * _ * (e i).rate ≠ 0
        rw [er2]; positivity
    have hfe1 : FlowEquations g wa.terrain wa.fluxRate Ea (ws i).st ⟨tempGradient g Ea (ws i).st (d i), crystalGradient g Ea (ws i).st (d i), 1 / (d i).v⟩ :=
      ⟨d i, m1, ⟨qs, q1, q2⟩, rfl, rfl, rfl⟩
    have hfe2 : FlowEquations g wa.terrain wa.fluxRate Ea (vs i).st ⟨tempGradient g Ea (vs i).st e0, crystalGradient g Ea (vs i).st e0, 1 / e0.v⟩ :=
      ⟨e0, made0, ⟨ps, p1, rfl⟩, rfl, rfl, rfl⟩
    have l1 := hlip _ _ _ _ (hin i h1) (hin' i h2) hpos c1 c2 hfe1 hfe2
    have hG : tempGradient g Eb (vs i).st (e i) ≤ tempGradient g Ea (vs i).st e0 := by
      show -(e i).heat / (Eb * g.models.lava.density (vs i).st * g.models.lava.latentHeat * (e i).rate) ≤
        -ps.sum / (Ea * g.models.lava.density (vs i).st * g.models.lava.latentHeat * (e i).rate)
      rw [u2, er2]
      have hb : ps.sum / Ea ≤ us.sum / Eb := by
        have e1 : ps.sum / Ea = ps.sum / ca * (ca / Ea) := by field_simp
        have e2 : us.sum / Eb = us.sum / cb * (ca / Ea) := by
          rw [show ca / Ea = cb / Eb from by rw [div_eq_div_iff hEa.ne' hEb.ne']; exact hratio.symm]
          field_simp
        rw [e1, e2]
        exact mul_le_mul_of_nonneg_right p2 (by positivity)
      have hc : 0 < g.models.lava.density (vs i).st * g.models.lava.latentHeat * r := by positivity
      have e1 : -us.sum / (Eb * g.models.lava.density (vs i).st * g.models.lava.latentHeat * r) = -(us.sum / Eb) / (g.models.lava.density (vs i).st * g.models.lava.latentHeat * r) := by
        field_simp
      have e2 : -ps.sum / (Ea * g.models.lava.density (vs i).st * g.models.lava.latentHeat * r) = -(ps.sum / Ea) / (g.models.lava.density (vs i).st * g.models.lava.latentHeat * r) := by
        field_simp
      rw [e1, e2]
      gcongr
    have hC : ∀ (E : ℝ) (s : FlowState ℝ) (d : RowData), d.rate = r → crystalGradient g E s d = -r * tempGradient g E s d := by
      intro E s d hd
      unfold crystalGradient tempGradient
      rw [hd]; field_simp
    have hT1 := s1.temp
    have hT2 := s2.temp
    have hP1 := s1.crystal
    have hP2 := s2.crystal
    refine ⟨?_, ?_⟩
    · rw [hT1, hT2]
      have hn : 0 ≤ (ws i).st.temp - (vs i).st.temp := by linarith
      have b1 : -(K * ((ws i).st.temp - (vs i).st.temp)) ≤ tempGradient g Ea (ws i).st (d i) - tempGradient g Eb (vs i).st (e i) := by
        dsimp only at l1
        linarith
      have b2 := mul_le_mul_of_nonneg_right b1 hdx.le
      have b3 := mul_le_mul_of_nonneg_right hsmall hn
      nlinarith
    · rw [hT1, hT2, hP1, hP2, hC _ _ _ er1, hC _ _ _ er2]
      linear_combination c2
end
end PyFlowGo
