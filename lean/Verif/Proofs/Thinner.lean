import Verif.Props.StrongerSensible
import Verif.Props.KinderVent
import Verif.Spec.Thinner
/-
  C134: the rows of two runs in the same channel of which the first is of thinner lava.
-/
set_option linter.unusedSectionVars false
namespace PyFlowGo
open Spec

/-- Carrying one cubic metre per second through the same channel, the thinner lava loses no more heat per metre through the flux `f`. -/
def ThinLosesNoMore (m m' : Models ℝ) (T T' : Terrain ℝ) (R : ℝ → ℝ → ℝ → Prop) (f : Flux ℝ) : Prop :=
  ∀ s va xa vb xb q, R s.pos s.temp s.crystal → m.lava.meanVelocity T s = .ok (va, xa) → m'.lava.meanVelocity T' s = .ok (vb, xb) →
    0 < vb → vb ≤ va → FluxIs m' (1 / (vb * T'.depth)) T'.depth T' s f q →
    ∃ q', FluxIs m (1 / (va * T.depth)) T.depth T s f q' ∧ 0 ≤ q' ∧ q' ≤ q

theorem thin_fluxes_no_more {m m' : Models ℝ} {T T' : Terrain ℝ} {R : ℝ → ℝ → ℝ → Prop} {s : FlowState ℝ} {va xa vb xb ca cb : ℝ}
    (hR : R s.pos s.temp s.crystal) (hva : m.lava.meanVelocity T s = .ok (va, xa)) (hvb : m'.lava.meanVelocity T' s = .ok (vb, xb))
    (h0 : 0 < vb) (hle : vb ≤ va) (hca : 0 < ca) (hcb : 0 < cb) :
    ∀ (fs : List (Flux ℝ)) (qs : List ℝ), (∀ f ∈ fs, ThinLosesNoMore m m' T T' R f) →
      List.Forall₂ (FluxIs m' (cb / (vb * T'.depth)) T'.depth T' s) fs qs →
      ∃ us, List.Forall₂ (FluxIs m (ca / (va * T.depth)) T.depth T s) fs us ∧ 0 ≤ us.sum ∧ us.sum / ca ≤ qs.sum / cb := by
  intro fs qs hf h
  induction h with
  | nil => exact ⟨[], .nil, by simp, by simp⟩
  | @cons f q fs qs h1 _ ih =>
    obtain ⟨us, u1, u0, u2⟩ := ih fun f hf' => hf f (by simp [hf'])
    have h1 := fluxIs_scale (1 / cb) h1
    rw [show 1 / cb * (cb / (vb * T'.depth)) = 1 / (vb * T'.depth) by field_simp] at h1
    obtain ⟨q', k1, k0, k2⟩ := hf f (by simp) s va xa vb xb _ hR hva hvb h0 hle h1
    have k1 := fluxIs_scale ca k1
    rw [show ca * (1 / (va * T.depth)) = ca / (va * T.depth) by ring] at k1
    refine ⟨ca * q' :: us, .cons k1 u1, by rw [List.sum_cons]; exact add_nonneg (mul_nonneg hca.le k0) u0, ?_⟩
    rw [List.sum_cons, List.sum_cons, add_div, add_div]
    have : ca * q' / ca = q' := by field_simp
    rw [this]
    have : 1 / cb * q = q / cb := by ring
    linarith

/-- Which fluxes (as in C121). -/
theorem thin_fluxes (m : Models ℝ) (dre lat : ℝ) (melt : MeltModel ℝ) (rel : RelModel ℝ) (bub : BubModel ℝ) (yld : YieldModel ℝ) (T T' : Terrain ℝ) (R : ℝ → ℝ → ℝ → Prop) (hT : 0 < T.depth) (hdep : T'.depth = T.depth)
    (hcov : CoverShrinks m.cover) (hbet : CrustBetween m R) :
    (∀ rate rho lv, 0 ≤ rate * rho * lv → ThinLosesNoMore m { m with lava := { m.lava with densityDre := dre, latentHeat := lat, melt := melt, rel := rel, bub := bub, yld := yld } } T T' R (.rain rate rho lv)) ∧
    (∀ base pct, 0 < pct → (∀ x t phi, R x t phi → base ≤ t) → ThinLosesNoMore m { m with lava := { m.lava with densityDre := dre, latentHeat := lat, melt := melt, rel := rel, bub := bub, yld := yld } } T T' R (.conduction base pct)) ∧
    (∀ sigma e, 0 ≤ sigma * e → ThinLosesNoMore m { m with lava := { m.lava with densityDre := dre, latentHeat := lat, melt := melt, rel := rel, bub := bub, yld := yld } } T T' R (.radBasic sigma e)) ∧
    (∀ sigma e1 e2, 0 ≤ sigma → 0 ≤ e2 → e2 ≤ e1 → ThinLosesNoMore m { m with lava := { m.lava with densityDre := dre, latentHeat := lat, melt := melt, rel := rel, bub := bub, yld := yld } } T T' R (.radTwoEmi sigma e1 e2)) ∧
    (0 ≤ m.air.convCoef → (∀ s Tc, R s.pos s.temp s.crystal → m.crust.temperature s = .ok Tc → m.air.temp ≤ Tc ^ slippedExponent) →
        ThinLosesNoMore m { m with lava := { m.lava with densityDre := dre, latentHeat := lat, melt := melt, rel := rel, bub := bub, yld := yld } } T T' R .convection) := by
  refine ⟨?_, ?_, ?_, ?_, ?_⟩
  · intro rate rho lv h s va xa vb xb q _ _ _ h0 hle hq
    have hq : q = rate * rho * lv * (1 / (vb * T'.depth)) := hq
    rw [hdep] at hq
    have hva := h0.trans_le hle
    refine ⟨_, rfl, mul_nonneg h (by positivity), ?_⟩
    rw [hq]
    gcongr
  · rintro base pct hp hbase s va xa vb xb q hR _ _ h0 hle ⟨_, rfl⟩
    rw [hdep]
    have hva := h0.trans_le hle
    have := hbase _ _ _ hR
    have : 0 ≤ s.temp - base := by linarith
    refine ⟨_, ⟨(mul_pos hp hT).ne', rfl⟩, by positivity, ?_⟩
    show _ ≤ (1.929 - 1.554 * m.lava.vesicleFraction s) ^ 2 * ((s.temp - base) / (pct / 100 * T.depth)) * (1 / (vb * T.depth))
    gcongr
  · rintro sigma e hs s va xa vb xb q hR hva hvb h0 hle ⟨v, x, Tc, sg, em, hv, hTc, k1, k2, k3, k4, rfl⟩
    rw [hv] at hvb
    cases hvb
    rw [hdep]
    simp only [emissivityOf, Option.some.injEq, Prod.mk.injEq] at k4
    obtain ⟨rfl, rfl⟩ := k4
    obtain ⟨b1, b2, b3⟩ := hbet s Tc hR hTc
    obtain ⟨e1, e2⟩ := exchange_star (x := s.pos) hcov b1 b2 b3 h0 hle
    have hva0 := h0.trans_le hle
    exact ⟨_, ⟨va, xa, Tc, sigma, e, hva, hTc, k1, k2, e1, rfl, rfl⟩, mul_nonneg (mul_nonneg hs e1) (by positivity), per_cubic_metre hs e1 h0 hle hT le_rfl e2⟩
  · rintro sigma ec em hs hem hle2 s va xa vb xb q hR hva hvb h0 hle ⟨v, x, Tc, sg, em', hv, hTc, k1, k2, k3, k4, rfl⟩
    rw [hv] at hvb
    cases hvb
    rw [hdep]
    simp only [emissivityOf, Option.some.injEq, Prod.mk.injEq] at k4
    obtain ⟨rfl, rfl⟩ := k4
    obtain ⟨b1, b2, b3⟩ := hbet s Tc hR hTc
    obtain ⟨e1, e2⟩ := exchange_star (x := s.pos) hcov b1 b2 b3 h0 hle
    obtain ⟨r0, r1, r2⟩ := cover_range (x := s.pos) hcov b1 b2 b3 h0 hle
    have hva0 := h0.trans_le hle
    have m0 : ∀ f, 0 ≤ f → em ≤ mix f ec em := by
      intro f hf; unfold mix; nlinarith
    have m1 : mix (coverLaw m.cover s.pos va) ec em ≤ mix (coverLaw m.cover s.pos vb) ec em := by
      unfold mix; nlinarith
    have m2 : 0 ≤ mix (coverLaw m.cover s.pos va) ec em := hem.trans (m0 _ r0)
    have m3 : 0 ≤ mix (coverLaw m.cover s.pos vb) ec em := m2.trans m1
    refine ⟨_, ⟨va, xa, Tc, sigma, _, hva, hTc, k1, k2, e1, rfl, rfl⟩, mul_nonneg (mul_nonneg (mul_nonneg hs m2) e1) (by positivity), ?_⟩
    have := per_cubic_metre (c := sigma) (ha := mix (coverLaw m.cover s.pos va) ec em * radiantExchange (coverLaw m.cover s.pos va) Tc (coreTemperature m.lava s) m.air.temp)
      (hb := mix (coverLaw m.cover s.pos vb) ec em * radiantExchange (coverLaw m.cover s.pos vb) Tc (coreTemperature m.lava s) m.air.temp) hs (mul_nonneg m2 e1) h0 hle hT le_rfl
      (by
        calc vb / va * (mix (coverLaw m.cover s.pos va) ec em * radiantExchange (coverLaw m.cover s.pos va) Tc (coreTemperature m.lava s) m.air.temp)
            = mix (coverLaw m.cover s.pos va) ec em * (vb / va * radiantExchange (coverLaw m.cover s.pos va) Tc (coreTemperature m.lava s) m.air.temp) := by ring
          _ ≤ mix (coverLaw m.cover s.pos vb) ec em * radiantExchange (coverLaw m.cover s.pos vb) Tc (coreTemperature m.lava s) m.air.temp :=
            mul_le_mul m1 e2 (mul_nonneg (div_nonneg h0.le hva0.le) e1) m3)
    rw [← mul_assoc, ← mul_assoc] at this
    exact this
  · rintro hcoef hair s va xa vb xb q hR hva hvb h0 hle ⟨v, x, Tc, hv, hTc, k1, k2, k3, rfl⟩
    rw [hv] at hvb
    cases hvb
    rw [hdep]
    obtain ⟨b1, b2, b3⟩ := hbet s Tc hR hTc
    obtain ⟨e0, e1, e2⟩ := convective_star (x := s.pos) hcov b1 b2 b3 h0 hle (hair s Tc hR hTc)
    have hva0 := h0.trans_le hle
    exact ⟨_, ⟨va, xa, Tc, hva, hTc, k1, k2, e0, rfl⟩, mul_nonneg (mul_nonneg hcoef e1) (by positivity), per_cubic_metre hcoef e1 h0 hle hT le_rfl e2⟩

/-- Where the stiffer lava can flow the weaker can. -/
theorem weak_compatible {l l' : Lava ℝ} {T T' : Terrain ℝ} {s : FlowState ℝ} (hphi : 0 ≤ s.crystal) (hb : ∀ b', l'.basalStress T' s = .ok b' → ∃ b, l.basalStress T s = .ok b ∧ b' ≤ b)
    (hle : ∀ t t', l.yieldStrength s = .ok t → l'.yieldStrength s = .ok t' → t ≤ t') (h : l'.yieldNotCompatible T' s = .ok false) : l.yieldNotCompatible T s = .ok false := by
  obtain ⟨t, y1, _, _⟩ := C34_yield_nonneg l.yld s hphi
  obtain ⟨t', y2, _, _⟩ := C34_yield_nonneg l'.yld s hphi
  have y1 : l.yieldStrength s = .ok t := y1
  have y2 : l'.yieldStrength s = .ok t' := y2
  have := hle _ _ y1 y2
  unfold Lava.yieldNotCompatible at h ⊢
  rw [y2, ok_bind] at h
  rw [y1, ok_bind]
  cases hs : l'.basalStress T' s with
  | error e => rw [hs] at h; cases h
  | ok tb =>
    obtain ⟨b, hb1, hb2⟩ := hb _ hs
    rw [hs, ok_bind, pure_ok_iff, ← Bool.not_eq_true, leB_real, not_le] at h
    rw [hb1, ok_bind, pure_ok_iff, ← Bool.not_eq_true, leB_real, not_le]
    linarith

/-- In the same channel the thinner lava is not slower where the thicker moves. -/
theorem thin_velocity {l l' : Lava ℝ} {T T' : Terrain ℝ} {s : FlowState ℝ} (hd : 0 < T.depth) (hdep : T'.depth = T.depth) (hphi : 0 ≤ s.crystal)
    (hy : ∀ t t', l.yieldStrength s = .ok t → l'.yieldStrength s = .ok t' → t ≤ t') (hb : ∀ b', l'.basalStress T' s = .ok b' → ∃ b, l.basalStress T s = .ok b ∧ b' ≤ b)
    {mu : ℝ} (hm : l.bulkViscosity s = .ok mu) (hmu : 0 < mu) (hle : ∀ mu', l'.bulkViscosity s = .ok mu' → mu ≤ mu') {vb xb : ℝ}
    (hvb : l'.meanVelocity T' s = .ok (vb, xb)) (hyc : l'.yieldNotCompatible T' s = .ok false) :
    ∃ va xa ta, l.meanVelocity T s = .ok (va, xa) ∧ vb ≤ va ∧ 0 < vb ∧ l.basalStress T s = .ok ta := by
  obtain ⟨t0, tb, mu', h0, hb', h1, _, _, _, rfl, _⟩ := (meanVelocity_ok_iff _ _ _ _ _).mp hvb
  have hlt : t0 < tb := by
    unfold Lava.yieldNotCompatible at hyc
    rw [h0, ok_bind, hb', ok_bind, pure_ok_iff, ← Bool.not_eq_true, leB_real] at hyc
    exact not_le.mp hyc
  obtain ⟨b, hb1, hb2⟩ := hb _ hb'
  rw [hdep]
  obtain ⟨t1, y1, y2, _⟩ := C34_yield_nonneg l.yld s hphi
  have y1 : l.yieldStrength s = .ok t1 := y1
  have ht := hy _ _ y1 h0
  have ht0 : 0 ≤ t0 := y2.trans ht
  have htb : 0 < tb := ht0.trans_lt hlt
  have hmm := hle _ h1
  exact ⟨_, _, b, (meanVelocity_ok_iff _ _ _ _ _).mpr ⟨t1, b, mu, y1, hb1, hm, hmu.ne', (htb.trans_le hb2).ne', hd.ne', rfl, rfl⟩,
    bingham_easier hd htb hb2 hmu hmm y2 ht hlt.le, bingham_pos hd htb (hmu.trans_le hmm) ht0 hlt.ne, hb1⟩

section
variable {g : Integrator ℝ} {dre lat : ℝ} {melt : MeltModel ℝ} {rel : RelModel ℝ} {bub : BubModel ℝ} {yld : YieldModel ℝ} {wa wb a b : World ℝ} {Ea Eb r K : ℝ} {R R' : ℝ → ℝ → ℝ → Prop}
  {k k' : Nat} {ws vs : Nat → World ℝ} {d e : Nat → RowData}

/-- The thinner lava is hotter, row by row. -/
theorem thinner_states (hl : StrainIndependent g.models.lava) (hl' : StrainIndependent (withMaterial g dre lat melt rel bub yld).models.lava) (hdx : 0 < g.dx) (hr0 : 0 < r)
    (hrate : ∀ s, g.models.cryst.rate s = .ok r) (hEa : 0 < Ea) (hEb : 0 < Eb) (hL : 0 < lat) (hlat : lat ≤ g.models.lava.latentHeat) (hdre0 : 0 < g.models.lava.densityDre) (hdre : dre ≤ g.models.lava.densityDre)
    (hdep : wb.terrain.depth = wa.terrain.depth) (hsl : ∀ x, ∃ y, wa.terrain.slope x = .ok y) (hD : 0 < wa.terrain.depth) (hs : SameVent wa.st wb.st)
    (hmass : g.massConservation = true → ∃ c c', 0 < c ∧ 0 < c' ∧ c * dre = c' * g.models.lava.densityDre ∧ wa.fluxRate = some (c * Ea) ∧ wb.fluxRate = some (c' * Eb))
    (hrho : ∀ s, R' s.pos s.temp s.crystal → 0 < g.models.lava.density s ∧ 0 < (withMaterial g dre lat melt rel bub yld).models.lava.density s)
    (hvel : ∀ s vb xb, R' s.pos s.temp s.crystal → (withMaterial g dre lat melt rel bub yld).models.lava.meanVelocity wb.terrain s = .ok (vb, xb) →
      (∃ va xa ta, g.models.lava.meanVelocity wa.terrain s = .ok (va, xa) ∧ vb ≤ va ∧ 0 < vb ∧ g.models.lava.basalStress wa.terrain s = .ok ta) ∧
      (∃ mu, g.models.lava.bulkViscosity s = .ok mu) ∧ ∃ t, g.models.lava.yieldStrength s = .ok t)
    (hloss : ∀ f ∈ g.models.fluxes, ThinLosesNoMore g.models (withMaterial g dre lat melt rel bub yld).models wa.terrain wb.terrain R' f)
    (hlip : ColderSlower g wa.terrain wa.fluxRate Ea R R' r K) (hsmall : g.dx * K ≤ 1)
    (t : RunTable g wa a Ea k ws d) (t' : RunTable (withMaterial g dre lat melt rel bub yld) wb b Eb k' vs e)
    (hin : ∀ i, i < k → R (ws i).st.pos (ws i).st.temp (ws i).st.crystal)
    (hin' : ∀ i, i < k' → R' (vs i).st.pos (vs i).st.temp (vs i).st.crystal) :
    ∀ i, i ≤ k → i ≤ k' → (vs i).st.temp ≤ (ws i).st.temp ∧
      (vs i).st.crystal - (ws i).st.crystal = r * ((ws i).st.temp - (vs i).st.temp) := by
  intro i
  induction i with
  | zero => intro _ _; rw [t.start, t'.start, hs.2.1, hs.2.2]; simp
  | succ i ih =>
    intro h1 h2
    obtain ⟨c1, c2⟩ := ih (by omega) (by omega)
    have h1 : i < k := by omega
    have h2 : i < k' := by omega
    have m1 := t.made i h1
    have m2 := t'.made i h2
    have s1 := t.step i h1
    have s2 := t'.step i h2
    have er1 : (d i).rate = r := by have := m1.rate; rw [hrate] at this; injection this with this; exact this.symm
    have er2 : (e i).rate = r := by
      have : g.models.cryst.rate (vs i).st = .ok (e i).rate := m2.rate
      rw [hrate] at this; injection this with this; exact this.symm
    have hpos : (ws i).st.pos = (vs i).st.pos := by
      rw [t.pos i h1.le, t'.pos i h2.le, hs.1]; rfl
    obtain ⟨hrho1, hrho2⟩ := hrho _ (hin' i h2)
    have hprop : (withMaterial g dre lat melt rel bub yld).models.lava.density (vs i).st * g.models.lava.densityDre = g.models.lava.density (vs i).st * dre := by
      show dre * (1.0 - g.models.lava.vesicleFraction (vs i).st) * g.models.lava.densityDre = g.models.lava.densityDre * (1.0 - g.models.lava.vesicleFraction (vs i).st) * dre
      generalize (1.0 - g.models.lava.vesicleFraction (vs i).st : ℝ) = z
      ring
    have hrhole : (withMaterial g dre lat melt rel bub yld).models.lava.density (vs i).st ≤ g.models.lava.density (vs i).st := by
      have : g.models.lava.density (vs i).st * dre ≤ g.models.lava.density (vs i).st * g.models.lava.densityDre := mul_le_mul_of_nonneg_left hdre hrho1.le
      exact le_of_mul_le_mul_right (hprop.le.trans this) hdre0
    have hL1 : 0 < g.models.lava.latentHeat := hL.trans_le hlat
    obtain ⟨qs, q1, q2⟩ := t.heat hl i h1
    obtain ⟨us, u1, u2⟩ := t'.heat hl' i h2
    obtain ⟨xb, hvb⟩ := m2.velocity
    obtain ⟨⟨va, xa, ta, hva, hvle, hvb0, hta⟩, ⟨mu, hmu⟩, t0, ht0⟩ := hvel _ _ _ (hin' i h2) hvb
    have hva0 : 0 < va := hvb0.trans_le hvle
    -- what the two flows carry
    obtain ⟨ca, cb, hca, hcb, hratio, hwb, hwa1, hwa2⟩ : ∃ ca cb, 0 < ca ∧ 0 < cb ∧ cb * Ea = ca * Eb ∧ (e i).width = cb / ((e i).v * wb.terrain.depth) ∧
        (g.massConservation = false → ca = Ea) ∧
        (g.massConservation = true → ∃ flux, wa.fluxRate = some flux ∧ ca = flux / g.models.lava.density (vs i).st) := by
      cases hm : g.massConservation with
      | false => exact ⟨Ea, Eb, hEa, hEb, mul_comm _ _, m2.volume hm, fun _ => rfl, fun h => (by cases h)⟩
      | true =>
        obtain ⟨c, c', hc, hc', hcc, f1, f2⟩ := hmass hm
        obtain ⟨flux, h3, h4⟩ := m2.mass hm
        rw [f2] at h3
        injection h3 with h3
        generalize hB : (withMaterial g dre lat melt rel bub yld).models.lava.density (vs i).st = rB at *
        generalize hA : g.models.lava.density (vs i).st = rA at *
        refine ⟨c * Ea / rA, c' * Eb / rB, by positivity, by positivity, ?_, ?_, fun h => (by cases h), fun _ => ⟨_, f1, rfl⟩⟩
        · have hdr : 0 < dre := by
            have h1 : 0 < rA * dre := by rw [← hprop]; positivity
            exact pos_of_mul_pos_right h1 hrho1.le
          have : c' * rA = c * rB := by
            have h1 : c' * rA * (dre * g.models.lava.densityDre) = c * rB * (dre * g.models.lava.densityDre) := by
              linear_combination (-(rA * dre)) * hcc - c * dre * hprop
            exact mul_right_cancel₀ (mul_pos hdr hdre0).ne' h1
          rw [div_mul_eq_mul_div, div_mul_eq_mul_div, div_eq_div_iff hrho2.ne' hrho1.ne']
          linear_combination Ea * Eb * this
        · rw [h4, ← h3, div_right_comm]
    rw [hwb] at u1
    obtain ⟨ps, p1, p0, p2⟩ := thin_fluxes_no_more (hin' i h2) hva hvb hvb0 hvle hca hcb _ _ hloss u1
    obtain ⟨sl, hsl⟩ := hsl (vs i).st.pos
    let e0 : RowData := { e i with v := va, vCover := va, width := ca / (va * wa.terrain.depth), heat := ps.sum, viscosity := mu, yieldStrength := t0, slope := sl, basalStress := ta }
    have made0 : RowMade g wa.terrain wa.fluxRate Ea (vs i).st e0 := by
      refine ⟨⟨xa, hva⟩, hva0, hD.ne', ⟨xa, ?_⟩, ?_, ?_, hsl, ?_, m2.crust, ht0, hta, m2.rate, ?_⟩
      · rw [meanVelocity_strain _ hl]; exact hva
      · intro hm; show ca / _ = _; rw [hwa1 hm]
      · intro hm
        obtain ⟨flux, h3, h4⟩ := hwa2 hm
        refine ⟨flux, h3, ?_⟩
        show ca / (va * wa.terrain.depth) = flux / (va * wa.terrain.depth) / _
        rw [h4, div_right_comm]
      · rw [hl]; exact hmu
      · show Ea * _ * _ * (e i).rate ≠ 0
        rw [er2]; positivity
    have hfe1 : FlowEquations g wa.terrain wa.fluxRate Ea (ws i).st ⟨tempGradient g Ea (ws i).st (d i), crystalGradient g Ea (ws i).st (d i), 1 / (d i).v⟩ :=
      ⟨d i, m1, ⟨qs, q1, q2⟩, rfl, rfl, rfl⟩
    have hfe2 : FlowEquations g wa.terrain wa.fluxRate Ea (vs i).st ⟨tempGradient g Ea (vs i).st e0, crystalGradient g Ea (vs i).st e0, 1 / e0.v⟩ :=
      ⟨e0, made0, ⟨ps, p1, rfl⟩, rfl, rfl, rfl⟩
    have l1 := hlip _ _ _ _ (hin i h1) (hin' i h2) hpos c1 c2 hfe1 hfe2
    have hG : tempGradient (withMaterial g dre lat melt rel bub yld) Eb (vs i).st (e i) ≤ tempGradient g Ea (vs i).st e0 := by
      show -(e i).heat / (Eb * (withMaterial g dre lat melt rel bub yld).models.lava.density (vs i).st * lat * (e i).rate) ≤
        -ps.sum / (Ea * g.models.lava.density (vs i).st * g.models.lava.latentHeat * (e i).rate)
      rw [u2, er2]
      have hb : ps.sum / Ea ≤ us.sum / Eb := by
        have e1 : ps.sum / Ea = ps.sum / ca * (ca / Ea) := by field_simp
        have e2 : us.sum / Eb = us.sum / cb * (ca / Ea) := by
          rw [show ca / Ea = cb / Eb from by rw [div_eq_div_iff hEa.ne' hEb.ne']; exact hratio.symm]
          field_simp
        rw [e1, e2]
        exact mul_le_mul_of_nonneg_right p2 (by positivity)
      generalize (withMaterial g dre lat melt rel bub yld).models.lava.density (vs i).st = rB at *
      generalize g.models.lava.density (vs i).st = rA at *
      have e1 : -us.sum / (Eb * rB * lat * r) = -(us.sum / Eb / (rB * lat * r)) := by
        field_simp
      have e2 : -ps.sum / (Ea * rA * g.models.lava.latentHeat * r) = -(ps.sum / Ea / (rA * g.models.lava.latentHeat * r)) := by
        field_simp
      rw [e1, e2, neg_le_neg_iff]
      have h0 : 0 ≤ ps.sum / Ea := div_nonneg p0 hEa.le
      exact div_le_div₀ (h0.trans hb) hb (by positivity) (mul_le_mul_of_nonneg_right (mul_le_mul hrhole hlat hL.le hrho1.le) hr0.le)
    have hC1 : crystalGradient g Ea (ws i).st (d i) = -r * tempGradient g Ea (ws i).st (d i) := by
      unfold crystalGradient tempGradient
      rw [er1]; field_simp
    have hC2 : crystalGradient (withMaterial g dre lat melt rel bub yld) Eb (vs i).st (e i) = -r * tempGradient (withMaterial g dre lat melt rel bub yld) Eb (vs i).st (e i) := by
      unfold crystalGradient tempGradient
      rw [er2]; field_simp
    have hT1 := s1.temp
    have hT2 : (vs (i + 1)).st.temp = (vs i).st.temp + tempGradient (withMaterial g dre lat melt rel bub yld) Eb (vs i).st (e i) * g.dx := s2.temp
    have hP1 := s1.crystal
    have hP2 : (vs (i + 1)).st.crystal = (vs i).st.crystal + crystalGradient (withMaterial g dre lat melt rel bub yld) Eb (vs i).st (e i) * g.dx := s2.crystal
    refine ⟨?_, ?_⟩
    · rw [hT1, hT2]
      have hn : 0 ≤ (ws i).st.temp - (vs i).st.temp := by linarith
      have b1 : -(K * ((ws i).st.temp - (vs i).st.temp)) ≤ tempGradient g Ea (ws i).st (d i) - tempGradient (withMaterial g dre lat melt rel bub yld) Eb (vs i).st (e i) := by
        dsimp only at l1
        linarith
      have b2 := mul_le_mul_of_nonneg_right b1 hdx.le
      have b3 := mul_le_mul_of_nonneg_right hsmall hn
      nlinarith
    · rw [hT1, hT2, hP1, hP2, hC1, hC2]
      linear_combination c2
end
end PyFlowGo
