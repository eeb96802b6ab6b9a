import Verif.Proofs.Thinner
import Verif.Props.HarsherSensible
/-
  C134: thinner lava in the same channel is nowhere colder, nowhere slower, and does not stop earlier. C135: the same for steeper ground.
-/
set_option linter.unusedSectionVars false
namespace PyFlowGo
open Spec

section
variable (g : Integrator ℝ) (dre lat : ℝ) (melt : MeltModel ℝ) (rel : RelModel ℝ) (bub : BubModel ℝ) (yld : YieldModel ℝ) (x0 r : ℝ) (n n' : Nat) (wa wb a b : World ℝ)
  (ha : Sensible g wa.terrain x0) (hb : Sensible (withMaterial g dre lat melt rel bub yld) wb.terrain x0) (he : Everyday g x0 r)
  (hn' : NoStrainRate (withMaterial g dre lat melt rel bub yld).models.lava)
  (hthin : NotThicker g.models.cryst.solidTemperature x0 g.models.lava (withMaterial g dre lat melt rel bub yld).models.lava)
  (hdre : dre ≤ g.models.lava.densityDre) (hlat : lat ≤ g.models.lava.latentHeat) (hsteep : Steeper wb.st.pos wa.terrain wb.terrain) (hvb : AtVent (withMaterial g dre lat melt rel bub yld) wb) (hx : x0 ≤ wa.st.pos) (hsame : SameVent wa.st wb.st)
  (hla : wa.log = []) (hlb : wb.log = []) (hia : wa.iteration = 0) (hib : wb.iteration = 0)
  (hvent : (withMaterial g dre lat melt rel bub yld).models.lava.yieldNotCompatible wb.terrain wb.st = .ok false)
  (hmass : g.massConservation = true → ∃ c c', c * dre = c' * g.models.lava.densityDre ∧ MassFrom g wa x0 c ∧ MassFrom (withMaterial g dre lat melt rel bub yld) wb x0 c')
  (hrun : runLoop g n wa = some (.ok (), a)) (hrun' : runLoop (withMaterial g dre lat melt rel bub yld) n' wb = some (.ok (), b))
  (hsmall : StepIsSmall g wa.terrain.depth (wa.st.temp - g.models.lava.buffer) r a.log)

include ha hb he hn' hthin hdre hlat hsteep hvb hx hsame hla hlb hia hib hvent hmass hrun hrun' hsmall

/-- C134 and C135 together: the first lava is nowhere thicker or stronger, and its ground nowhere less steep. -/
theorem gentler_sensible :
    (∀ x T T', BothShow a.log b.log "core_temperature" x T T' → T' ≤ T) ∧
    (∀ x phi phi', BothShow a.log b.log "crystal_fraction" x phi phi' → phi ≤ phi') ∧
    (∀ x v v', BothShow a.log b.log "mean_velocity" x v v' → v' ≤ v) ∧
    (wa.finished = false → (∀ x q, loggedNum a.log x "heat_budget" = some q → 0 < q) →
      b.st.pos ≤ a.st.pos ∧ ∀ x, CompleteRow b.log x → CompleteRow a.log x) := by
  have hl := noStrain_independent he.strain
  have hl' := noStrain_independent hn'
  obtain ⟨hr0, hrate⟩ := he.rate
  have hdx := ha.step
  obtain ⟨p1, p2, p3⟩ := hsame
  have hxb : x0 ≤ wb.st.pos := by rw [p1]; exact hx
  have hdep := hsteep.depth
  have hD : 0 < wa.terrain.depth := by rw [← hdep]; exact hvb.depth
  have fb : Fit (withMaterial g dre lat melt rel bub yld) wb.terrain x0 wb.st := ⟨hxb, hvb.crystals, hvb.hot, hvb.room, hvb.off, hvb.ground⟩
  have downhill : ∀ s y', Fit (withMaterial g dre lat melt rel bub yld) wb.terrain x0 s → (withMaterial g dre lat melt rel bub yld).models.lava.yieldNotCompatible wb.terrain s = .ok false → wb.terrain.slope s.pos = .ok y' → 0 < wb.terrain.gravity * Real.sin y' := by
    intro s y' hs hy hy'
    obtain ⟨t0, e1, e2⟩ := yield_total (g := (withMaterial g dre lat melt rel bub yld)) hs.crystals
    unfold Lava.yieldNotCompatible at hy
    rw [e1, ok_bind] at hy
    unfold Lava.basalStress at hy
    rw [hy', ok_bind, pure_bind, pure_ok_iff, ← Bool.not_eq_true, leB_real, not_le] at hy
    have hrho := density_pos hb hs.downstream
    have h1 : t0 < wb.terrain.depth * (withMaterial g dre lat melt rel bub yld).models.lava.density s * wb.terrain.gravity * Real.sin y' := hy
    have h2 : wb.terrain.depth * (withMaterial g dre lat melt rel bub yld).models.lava.density s * wb.terrain.gravity * Real.sin y' = wb.terrain.depth * (withMaterial g dre lat melt rel bub yld).models.lava.density s * (wb.terrain.gravity * Real.sin y') := by ring
    rw [h2] at h1
    exact pos_of_mul_pos_right (e2.trans_lt h1) (mul_pos hvb.depth hrho).le
  have basal : ∀ s b', Fit (withMaterial g dre lat melt rel bub yld) wb.terrain x0 s → OnTheWay wb.st.pos wb.terrain s.pos → (withMaterial g dre lat melt rel bub yld).models.lava.yieldNotCompatible wb.terrain s = .ok false → (withMaterial g dre lat melt rel bub yld).models.lava.basalStress wb.terrain s = .ok b' →
      ∃ b, g.models.lava.basalStress wa.terrain s = .ok b ∧ b' ≤ b := by
    intro s b' hs hw hyc h
    obtain ⟨y, hy⟩ := ha.slopes s.pos
    obtain ⟨y', hy'⟩ := hb.slopes s.pos
    have p2 := hsteep.pull _ _ _ hw hy hy' (downhill s y' hs hyc hy')
    unfold Lava.basalStress at h ⊢
    rw [hy', ok_bind, pure_ok_iff] at h
    rw [hy, ok_bind]
    refine ⟨_, rfl, ?_⟩
    rw [← h]
    have hd := downhill s y' hs hyc hy'
    have hA := density_pos ha hs.downstream
    have hle : (withMaterial g dre lat melt rel bub yld).models.lava.density s ≤ g.models.lava.density s := by
      show dre * (1.0 - g.models.lava.vesicleFraction s) ≤ g.models.lava.densityDre * (1.0 - g.models.lava.vesicleFraction s)
      refine mul_le_mul_of_nonneg_right hdre (pos_of_mul_pos_right hA ha.density.le).le
    have h1 : wb.terrain.depth * (withMaterial g dre lat melt rel bub yld).models.lava.density s * wb.terrain.gravity * Real.sin y' = wa.terrain.depth * ((withMaterial g dre lat melt rel bub yld).models.lava.density s * (wb.terrain.gravity * Real.sin y')) := by
      rw [hdep]; ring
    have h2 : wa.terrain.depth * g.models.lava.density s * wa.terrain.gravity * Real.sin y = wa.terrain.depth * (g.models.lava.density s * (wa.terrain.gravity * Real.sin y)) := by ring
    show wb.terrain.depth * (withMaterial g dre lat melt rel bub yld).models.lava.density s * wb.terrain.gravity * Real.sin y' ≤ wa.terrain.depth * g.models.lava.density s * wa.terrain.gravity * Real.sin y
    rw [h1, h2]
    exact mul_le_mul_of_nonneg_left (mul_le_mul hle p2 hd.le hA.le) hD.le
  have ground : ∀ s, Fit (withMaterial g dre lat melt rel bub yld) wb.terrain x0 s → OnTheWay wb.st.pos wb.terrain s.pos → (withMaterial g dre lat melt rel bub yld).models.lava.yieldNotCompatible wb.terrain s = .ok false → ∀ y, wa.terrain.slope s.pos = .ok y → Real.sin y ≠ 0 := by
    intro s hs hw hyc y hy h0
    obtain ⟨y', hy'⟩ := hb.slopes s.pos
    have h1 := downhill s y' hs hyc hy'
    have h2 := hsteep.pull _ _ _ hw hy hy' h1
    rw [h0, mul_zero] at h2
    linarith
  have thin : ∀ s, Fit (withMaterial g dre lat melt rel bub yld) wb.terrain x0 s → OnTheWay wb.st.pos wb.terrain s.pos → (withMaterial g dre lat melt rel bub yld).models.lava.yieldNotCompatible wb.terrain s = .ok false → Fit g wa.terrain x0 s := by
    intro s hs hw hyc
    obtain ⟨q1, q2⟩ := hthin.room s hs.downstream hs.crystals hs.hot hs.room hs.off
    exact ⟨hs.downstream, hs.crystals, hs.hot, q1, q2, ground s hs hw hyc⟩
  have fa : Fit g wa.terrain x0 wa.st := fit_same (thin _ fb (Or.inl rfl) hvent) p1.symm p2.symm p3.symm
  have hmua : ∀ s, Fit g wa.terrain x0 s → ∀ mu, g.models.lava.bulkViscosity s = .ok mu → 0 < mu := by
    intro s hs mu hm
    obtain ⟨m1, e1, e2⟩ := viscosity_total ha hs
    rw [hm] at e1; injection e1 with e1; rw [e1]; exact e2
  have hvelFit : ∀ s vb xb, Fit (withMaterial g dre lat melt rel bub yld) wb.terrain x0 s → OnTheWay wb.st.pos wb.terrain s.pos → (withMaterial g dre lat melt rel bub yld).models.lava.yieldNotCompatible wb.terrain s = .ok false →
      (withMaterial g dre lat melt rel bub yld).models.lava.meanVelocity wb.terrain s = .ok (vb, xb) →
      (∃ va xa ta, g.models.lava.meanVelocity wa.terrain s = .ok (va, xa) ∧ vb ≤ va ∧ 0 < vb ∧ g.models.lava.basalStress wa.terrain s = .ok ta) ∧
      (∃ mu, g.models.lava.bulkViscosity s = .ok mu) ∧ ∃ t, g.models.lava.yieldStrength s = .ok t := by
    intro s vb xb hs hw hy hv
    obtain ⟨mu, e1, e2⟩ := viscosity_total ha (thin s hs hw hy)
    refine ⟨thin_velocity (l := g.models.lava) (l' := (withMaterial g dre lat melt rel bub yld).models.lava) hD hdep hs.crystals (fun t t' => hthin.strength s t t' hs.downstream hs.crystals hs.hot) (fun b' => basal s b' hs hw hy) e1 e2 (fun mu' h => ?_) hv hy, ⟨mu, e1⟩,
      (yield_total (g := g) hs.crystals).imp fun _ h => h.1⟩
    exact hthin.viscosity s mu mu' hs.downstream hs.crystals hs.hot hs.room hs.off e1 h
  have weak : ∀ s, Fit (withMaterial g dre lat melt rel bub yld) wb.terrain x0 s → OnTheWay wb.st.pos wb.terrain s.pos → (withMaterial g dre lat melt rel bub yld).models.lava.yieldNotCompatible wb.terrain s = .ok false →
      g.models.lava.yieldNotCompatible wa.terrain s = .ok false := fun s hs hw h =>
    weak_compatible (l' := (withMaterial g dre lat melt rel bub yld).models.lava) hs.crystals (fun b' => basal s b' hs hw h) (fun t t' => hthin.strength s t t' hs.downstream hs.crystals hs.hot) h
  -- the velocities at the vents
  obtain ⟨kb, hkb⟩ := velocity_total hb hvb.depth fb
  obtain ⟨vb, xb, _, evb, _, _⟩ := hkb wb.st.strain
  have evb : (withMaterial g dre lat melt rel bub yld).models.lava.meanVelocity wb.terrain wb.st = .ok (vb, xb) := evb
  obtain ⟨⟨va, xa, ta, eva', hvle, hvb0, hta⟩, -⟩ := hvelFit _ _ _ fb (Or.inl rfl) hvent evb
  have eva : g.models.lava.meanVelocity wa.terrain wa.st = .ok (va, xa) := (velocity_atState hl _ p1.symm p2.symm p3.symm).trans eva'
  have hva0 : 0 < va := hvb0.trans_le hvle
  have evb' := evb
  have hEa : VentRate g wa (va * wa.terrain.width * wa.terrain.depth) := by
    intro v x h
    rw [eva, Except.ok.injEq, Prod.mk.injEq] at h
    rw [if_pos hia, h.1]
  have hEb : VentRate (withMaterial g dre lat melt rel bub yld) wb (vb * wb.terrain.width * wb.terrain.depth) := by
    intro v x h
    rw [evb', Except.ok.injEq, Prod.mk.injEq] at h
    rw [if_pos hib, h.1]
  have hEa0 : 0 < va * wa.terrain.width * wa.terrain.depth := mul_pos (mul_pos hva0 ha.width) hD
  have hEb0 : 0 < vb * wb.terrain.width * wb.terrain.depth := mul_pos (mul_pos hvb0 hb.width) hvb.depth
  have ra : Ready g wa := ⟨hD, fun h => absurd hia h, fun h => by
    obtain ⟨c, _, _, h1, _⟩ := hmass h; exact ⟨_, h1.2.2 _ _ eva⟩⟩
  have rb : Ready (withMaterial g dre lat melt rel bub yld) wb := ⟨hvb.depth, fun h => absurd hib h, fun h => by
    obtain ⟨_, c, _, _, h1⟩ := hmass h; exact ⟨_, h1.2.2 _ _ evb'⟩⟩
  have hb' := hb
  have fb' := fb
  -- the regions: states of the tables
  obtain ⟨k, ws, d, t⟩ := run_table g hdx n wa a hla hrun _ hEa
  obtain ⟨k', vs, e, t'⟩ := run_table (withMaterial g dre lat melt rel bub yld) hdx n' wb b hlb hrun' _ hEb
  have rowsa := fun i hi => (rows_fit ha fa ra t i hi).1
  have rowsb : ∀ i, i < k' → Fit (withMaterial g dre lat melt rel bub yld) wb.terrain x0 (vs i).st := fun i hi => (rows_fit hb' fb' rb t' i hi).1
  have yieldsb : ∀ i, i < k' → (withMaterial g dre lat melt rel bub yld).models.lava.yieldNotCompatible wb.terrain (vs i).st = .ok false := by
    intro i hi
    cases i with
    | zero => rw [t'.start]; exact hvent
    | succ j =>
      have := ((C13_accepted_reason _ _ _ (t'.accepted j (by omega))).2 (t'.accepted (j + 1) hi).1).2.2.1
      rw [t'.terrain _ hi.le] at this
      exact this
  have way : ∀ i, i < k' → OnTheWay wb.st.pos wb.terrain (vs i).st.pos := by
    intro i hi
    cases i with
    | zero => rw [t'.start]; exact Or.inl rfl
    | succ j =>
      have := ((C13_accepted_reason _ _ _ (t'.accepted j (by omega))).2 (t'.accepted (j + 1) hi).1).2.2.2
      rw [t'.terrain _ hi.le] at this
      refine Or.inr ⟨?_, this⟩
      rw [t'.pos _ hi.le]
      have : (0 : ℝ) ≤ ((j + 1 : ℕ) : ℝ) * g.dx := mul_nonneg (Nat.cast_nonneg _) hdx.le
      show wb.st.pos ≤ wb.st.pos + ((j + 1 : ℕ) : ℝ) * g.dx
      linarith
  let R : ℝ → ℝ → ℝ → Prop := fun x T phi => ∀ s : FlowState ℝ, s.pos = x → s.temp = T → s.crystal = phi →
    Fit g wa.terrain x0 s ∧ s.temp ≤ wa.st.temp ∧ ∀ v y, g.models.lava.meanVelocity wa.terrain s = .ok (v, y) → 0 < v →
      g.dx * (g.models.fluxes.map (wattPerKelvin g.models wa.terrain.depth (wa.st.temp - g.models.lava.buffer))).sum ≤
        v * wa.terrain.depth * g.models.lava.density s * g.models.lava.latentHeat * r
  let R' : ℝ → ℝ → ℝ → Prop := fun x T phi => ∀ s : FlowState ℝ, s.pos = x → s.temp = T → s.crystal = phi →
    Fit (withMaterial g dre lat melt rel bub yld) wb.terrain x0 s ∧ (withMaterial g dre lat melt rel bub yld).models.lava.yieldNotCompatible wb.terrain s = .ok false ∧ OnTheWay wb.st.pos wb.terrain s.pos
  have hin : ∀ i, i < k → R (ws i).st.pos (ws i).st.temp (ws i).st.crystal := by
    intro i hi s q1 q2 q3
    have hfit := fit_same (rowsa i hi) q1 q2 q3
    have hpl := plausible_rows ha fa ra (fun h => by
      obtain ⟨c, _, _, h1, _⟩ := hmass h; exact ⟨_, h1.2.2 _ _ eva, mul_pos h1.1 hEa0⟩) (fun _ => hEa0) t i hi
    obtain ⟨y, y1, _, y2, _⟩ := hpl.core_temperature
    rw [(t.row i hi).core_temperature, Option.some.injEq] at y1
    refine ⟨hfit, by rw [q2, y1]; exact y2, fun v y hv hv0 => ?_⟩
    have hsm := hsmall _ _ _ (t.row i hi).mean_velocity (t.row i hi).density
    have hv2 := velocity_atState hl wa.terrain q1 q2 q3
    obtain ⟨z, hz⟩ := (t.made i hi).velocity
    rw [hv, hz, Except.ok.injEq, Prod.mk.injEq] at hv2
    rw [hv2.1, density_pos_only _ s (ws i).st q1]
    exact hsm
  have hin' : ∀ i, i < k' → R' (vs i).st.pos (vs i).st.temp (vs i).st.crystal := by
    intro i hi s q1 q2 q3
    exact ⟨fit_same (rowsb i hi) q1 q2 q3, (yield_atState _ _ q1 q2 q3).trans (yieldsb i hi), by rw [q1]; exact way i hi⟩
  have hcover := sensible_cover ha.cover
  have hbetween : CrustBetween g.models R' := by
    intro s Tc hR hTc
    have hs := (hR s rfl rfl rfl).1
    obtain ⟨_, c2, _, c4⟩ := he.crust s Tc hs.downstream hTc
    refine ⟨he.air, c2, c4.trans ?_⟩
    unfold coreTemperature
    have : g.models.cryst.solidTemperature < s.temp := hs.hot
    linarith
  have hair : ∀ s Tc, R' s.pos s.temp s.crystal → g.models.crust.temperature s = .ok Tc → 1 ≤ Tc ∧ g.models.air.temp ≤ Tc ^ slippedExponent := by
    intro s Tc hR hTc
    obtain ⟨c1, _, c3, _⟩ := he.crust s Tc (hR s rfl rfl rfl).1.downstream hTc
    exact ⟨c1, c3⟩
  have hbase : ∀ base, base ≤ g.models.cryst.solidTemperature → ∀ x t phi, R' x t phi → base ≤ t := by
    intro base hb x t phi hR
    have := (hR ⟨phi, t, x, 0, 0⟩ rfl rfl rfl).1.hot
    have : g.models.cryst.solidTemperature < t := this
    linarith
  have hves : ∀ s, R s.pos s.temp s.crystal → 0 ≤ g.models.lava.vesicleFraction s ∧ g.models.lava.vesicleFraction s ≤ 1 := by
    intro s hR
    have := ha.vesicles s (hR s rfl rfl rfl).1.downstream
    exact ⟨this.1, this.2.le⟩
  have hloss : ∀ f ∈ g.models.fluxes, ThinLosesNoMore g.models (withMaterial g dre lat melt rel bub yld).models wa.terrain wb.terrain R' f := by
    obtain ⟨l1, l2, l3, l4, l5⟩ := thin_fluxes g.models dre lat melt rel bub yld wa.terrain wb.terrain R' hD hdep hcover hbetween
    intro f hf
    have hev := he.fluxes f hf
    cases f with
    | rain => exact l1 _ _ _ hev
    | conduction base pct => exact l2 _ _ hev.1 (hbase _ hev.2)
    | radBasic => exact l3 _ _ hev
    | radTwoEmi => exact l4 _ _ _ hev.1 hev.2.1 hev.2.2
    | convection => exact l5 hev fun s Tc h1 h2 => (hair s Tc h1 h2).2
    | _ => exact hev.elim
  have hM : ∀ x t phi, R x t phi → t - g.models.lava.buffer ≤ wa.st.temp - g.models.lava.buffer := by
    intro x t phi hR
    have : t ≤ wa.st.temp := (hR ⟨phi, t, x, 0, 0⟩ rfl rfl rfl).2.1
    linarith
  have hM0 : 0 ≤ wa.st.temp - g.models.lava.buffer := by
    have := fa.hot
    have := ha.molten.1
    linarith
  have hks : List.Forall₂ (PerKelvin g.models wa.terrain R R') g.models.fluxes
      (g.models.fluxes.map (wattPerKelvin g.models wa.terrain.depth (wa.st.temp - g.models.lava.buffer))) := by
    obtain ⟨l1, l2, l3⟩ := C121_per_kelvin g.models wa.terrain R R' hD
    obtain ⟨l3, l4, l5⟩ := l3 hcover hbetween he.steady _ hM
    rw [List.forall₂_map_right_iff, List.forall₂_same]
    intro f hf
    have hev := he.fluxes f hf
    cases f with
    | rain => exact l1 _ _ _ hev
    | conduction base pct => exact l2 _ _ hev.1 (hbase _ hev.2) hves
    | radBasic => exact l3 _ _ hev
    | radTwoEmi => exact l4 _ _ _ hev.1 hev.2.1 hev.2.2
    | convection => exact l5 hev hair
    | _ => exact hev.elim
  have hks0 : 0 ≤ (g.models.fluxes.map (wattPerKelvin g.models wa.terrain.depth (wa.st.temp - g.models.lava.buffer))).sum := by
    apply List.sum_nonneg
    intro q hq
    obtain ⟨f, hf, rfl⟩ := List.mem_map.mp hq
    have hev := he.fluxes f hf
    cases f with
    | rain => exact le_refl (0 : ℝ)
    | conduction base pct =>
      have := hev.1
      show 0 ≤ 1.929 ^ 2 / (pct / 100 * wa.terrain.depth)
      positivity
    | radBasic sigma e =>
      have : 0 ≤ sigma * e := hev
      exact mul_nonneg this (by positivity)
    | radTwoEmi sigma e1 e2 =>
      exact mul_nonneg hev.1 (mul_nonneg (hev.2.1.trans hev.2.2) (by positivity))
    | convection => exact hev
    | _ => exact hev.elim
  have hhot : ThinnerWhenHotter g.models.lava R R' := by
    intro s s' mu mu' hR hR' hp hT hc h1 h2
    exact C121_thinner g wa.terrain wa.terrain x0 ha he.strain s s' (hR s rfl rfl rfl).1 (thin _ (hR' s' rfl rfl rfl).1 (hR' s' rfl rfl rfl).2.2 (hR' s' rfl rfl rfl).2.1) hp hT hc mu mu' h1 h2
  have hstress : ∀ s t0 tb, R' s.pos s.temp s.crystal → g.models.lava.yieldStrength s = .ok t0 → g.models.lava.basalStress wa.terrain s = .ok tb → 0 < tb ∧ t0 ≤ tb := by
    intro s t0 tb hR h1 h2
    obtain ⟨hs, hy, hw⟩ := hR s rfl rfl rfl
    replace hy := weak s hs hw hy
    unfold Lava.yieldNotCompatible at hy
    rw [h1, ok_bind, h2, ok_bind, pure_ok_iff, ← Bool.not_eq_true, leB_real, not_le] at hy
    have ht0 : 0 ≤ t0 := by
      obtain ⟨t1, y1, y2, _⟩ := C34_yield_nonneg g.models.lava.yld s hs.crystals
      have h0 : g.models.lava.yld.strength s = .ok t0 := h1
      rw [y1] at h0; injection h0 with h0; rw [← h0]; exact y2
    exact ⟨by linarith, by linarith⟩
  have hstep : ColderSlower g wa.terrain wa.fluxRate (va * wa.terrain.width * wa.terrain.depth) R R' r (1 / g.dx) := by
    refine C121_small_step g wa.terrain wa.fluxRate _ R R' r (1 / g.dx) hr0 hrate hEa0 ha.latent hD ?_ ?_ ?_ ?_ hhot hstress _ hks0 hks ?_
    · intro hm flux s hf hR
      obtain ⟨c, _, _, ⟨c0, c1, c2⟩, _⟩ := hmass hm
      rw [c2 _ _ eva, Option.some.injEq] at hf
      rw [← hf]
      refine ⟨mul_pos c0 hEa0, ?_⟩
      rw [mul_comm]
      exact mul_le_mul_of_nonneg_left (c1 s (hR s rfl rfl rfl).1.downstream) hEa0.le
    · intro x T phi hR
      exact (hR ⟨phi, T, x, 0, 0⟩ rfl rfl rfl).1.crystals
    · intro s hR
      exact density_pos ha (hR s rfl rfl rfl).1.downstream
    · intro s mu hR h1
      exact hmua s (hR s rfl rfl rfl).1 mu h1
    · intro s v y hR h1 h2
      obtain ⟨hs, _, h3⟩ := hR s rfl rfl rfl
      have h3 := h3 v y h1 h2
      have hrho := density_pos ha hs.downstream
      have hL := ha.latent
      rw [div_le_div_iff₀ (by positivity) hdx]
      linarith
  have hmass' : g.massConservation = true → ∃ c c', 0 < c ∧ 0 < c' ∧ c * dre = c' * g.models.lava.densityDre ∧ wa.fluxRate = some (c * (va * wa.terrain.width * wa.terrain.depth)) ∧
      wb.fluxRate = some (c' * (vb * wb.terrain.width * wb.terrain.depth)) := by
    intro hm
    obtain ⟨c, c', hc, h1, h2⟩ := hmass hm
    exact ⟨c, c', h1.1, h2.1, hc, h1.2.2 _ _ eva, h2.2.2 _ _ evb'⟩
  have hrho : ∀ s, R' s.pos s.temp s.crystal → 0 < g.models.lava.density s := fun s hR => density_pos ha (hR s rfl rfl rfl).1.downstream
  have hK : g.dx * (1 / g.dx) ≤ 1 := by
    have : g.dx * (1 / g.dx) = 1 := by field_simp
    exact this.le
  have hc := thinner_states hl hl' hdx hr0 hrate hEa0 hEb0 hb.latent hlat ha.density hdre hdep ha.slopes hD ⟨p1, p2, p3⟩ hmass' (fun s hR => ⟨hrho s hR, density_pos hb (hR s rfl rfl rfl).1.downstream⟩)
    (fun s vb xb hR hv => hvelFit s vb xb (hR s rfl rfl rfl).1 (hR s rfl rfl rfl).2.2 (hR s rfl rfl rfl).2.1 hv) hloss hstep hK t t' hin hin'
  have posb : ∀ j, j ≤ k' → (vs j).st.pos = wa.st.pos + j * g.dx := fun j hj => by
    rw [t'.pos j hj, p1]; rfl
  have same : ∀ i j, i < k → j < k' → (ws i).st.pos = (vs j).st.pos → i = j := by
    intro i j hi hj hp
    rw [t.pos i hi.le, posb j hj.le] at hp
    have : (i : ℝ) = j := mul_right_cancel₀ hdx.ne' (by linarith)
    exact_mod_cast this
  have c3 : ∀ i, i ≤ k → i ≤ k' → (ws i).st.crystal ≤ (vs i).st.crystal := by
    intro i hi hj
    obtain ⟨c1, c2⟩ := hc i hi hj
    have := mul_nonneg hr0.le (sub_nonneg.mpr c1)
    linarith
  refine ⟨fun x T T' hb => ?_, fun x phi phi' hb => ?_, ?_, ?_⟩
  · obtain ⟨h1, h2⟩ := hb
    obtain ⟨i, hi, rfl⟩ := t.shown _ (step_not_part g _ (by simp)) _ _ h1
    obtain ⟨j, hj, hp⟩ := t'.shown _ (step_not_part _ _ (by simp)) _ _ h2
    obtain rfl := same i j hi hj hp
    have r1 := (t.row i hi).core_temperature
    have r2 := (t'.row i hj).core_temperature
    rw [h1, Option.some.injEq] at r1
    rw [← hp, h2, Option.some.injEq] at r2
    rw [r1, r2]
    exact (hc i hi.le hj.le).1
  · obtain ⟨h1, h2⟩ := hb
    obtain ⟨i, hi, rfl⟩ := t.shown _ (step_not_part g _ (by simp)) _ _ h1
    obtain ⟨j, hj, hp⟩ := t'.shown _ (step_not_part _ _ (by simp)) _ _ h2
    obtain rfl := same i j hi hj hp
    have r1 := (t.row i hi).crystal_fraction
    have r2 := (t'.row i hj).crystal_fraction
    rw [h1, Option.some.injEq] at r1
    rw [← hp, h2, Option.some.injEq] at r2
    rw [r1, r2]
    exact c3 i hi.le hj.le
  · rintro x v v' ⟨h1, h2⟩
    obtain ⟨i, hi, rfl⟩ := t.shown _ (step_not_part g _ (by simp)) _ _ h1
    obtain ⟨j, hj, hp⟩ := t'.shown _ (step_not_part _ _ (by simp)) _ _ h2
    obtain rfl := same i j hi hj hp
    have r1 := (t.row i hi).mean_velocity
    have r2 := (t'.row i hj).mean_velocity
    rw [h1, Option.some.injEq] at r1
    rw [← hp, h2, Option.some.injEq] at r2
    obtain ⟨zb, hzb⟩ := (t'.made i hj).velocity
    obtain ⟨za, hza⟩ := (t.made i hi).velocity
    obtain ⟨⟨vm, xm, tm, em, hm1, hm2, _⟩, -⟩ := hvelFit _ _ _ (rowsb i hj) (way i hj) (yieldsb i hj) hzb
    rw [r1, r2]
    refine hm1.trans (hotter_velocity hp (hc i hi.le hj.le).1 (c3 i hi.le hj.le) (rowsa i hi).crystals hD (fun mu mu' q1 q2 => ⟨hmua _ (rowsa i hi) mu q1,
      C121_thinner g wa.terrain wa.terrain x0 ha he.strain _ _ (rowsa i hi) (thin _ (rowsb i hj) (way i hj) (yieldsb i hj)) hp (hc i hi.le hj.le).1 (c3 i hi.le hj.le) mu mu' q1 q2⟩)
      (fun t0 tb q1 q2 => hstress _ _ _ (hin' i hj) q1 q2) hza em)
  · intro hfin hheat
    have hkk : k' ≤ k := by
      by_contra hlt
      have hlt : k < k' := by omega
      obtain ⟨c1, c2⟩ := hc k le_rfl hlt.le
      have cc := c3 k le_rfl hlt.le
      have hpos : (vs k).st.pos = (ws k).st.pos := by rw [t.pos k le_rfl, posb k hlt.le]
      have hphik : 0 ≤ (ws k).st.crystal := by
        have := crystals_ge t.accepted k le_rfl
        rw [t.start] at this
        linarith [fa.crystals]
      have hacc' := t'.accepted k hlt
      have hfitb := rowsb k hlt
      have hthinb := thin _ hfitb (way k hlt) (yieldsb k hlt)
      rcases t.ended with hend | hrej
      · have hf : (ws k).finished = true := by rw [← hend]; exact t.finished
        cases k with
        | zero =>
          rw [t.start, hfin] at hf
          cases hf
        | succ j =>
          have hreason := (C13_accepted_reason g _ _ (t.accepted j (by omega))).1 hf
          obtain ⟨n1, n2, n3, n4⟩ := (C13_accepted_reason _ _ _ (t'.accepted j (by omega))).2 hacc'.1
          rw [t.terrain _ le_rfl] at hreason
          rw [t'.terrain _ (by omega)] at n4
          rcases hreason with h1 | h1 | h1 | h1
          · have n1 : g.models.cryst.solidTemperature < (vs (j + 1)).st.temp := n1
            linarith
          · exact checked_fewer _ (sensible_packing ha.crystals) _ _ hpos.symm cc hthinb.room h1
          · exact yield_fewer _ _ _ _ hphik hpos cc c1 (weak _ hfitb (way _ hlt) (yieldsb _ hlt)) h1
          · rw [← hpos] at h1
            have := hsteep.length
            linarith
      · rcases rejected_cases hrej with ⟨v, x, hv, hle⟩ | ⟨v, x, q, hv, hpv, hq, hne, hgrow⟩
        · rw [t.terrain k le_rfl] at hv
          have hfit : Fit g wa.terrain x0 (ws k).st := by
            cases k with
            | zero => rw [t.start]; exact fa
            | succ j =>
              obtain ⟨f1, f2, _, _⟩ := (C13_accepted_reason g _ _ (t.accepted j (by omega))).2 hrej.1
              have hx2 : x0 ≤ (ws (j + 1)).st.pos := by
                rw [← hpos]; exact hfitb.downstream
              refine ⟨hx2, hphik, f1, f2, fun hpk => ?_, ?_⟩
              · obtain ⟨e1, he1⟩ := packed_viscosity ha _ hx2 hphik f1 f2 hpk
                obtain ⟨_, _, mu, _, _, hmu, _⟩ := (meanVelocity_ok_iff _ _ _ _ _).mp hv
                rw [he1] at hmu
                cases hmu
              · rw [← hpos]; exact ground _ hfitb (way _ hlt) (yieldsb _ hlt)
          obtain ⟨zb, hzb⟩ := (t'.made k hlt).velocity
          obtain ⟨⟨vm, xm, tm, em, hm1, hm2, _⟩, -⟩ := hvelFit _ _ _ hfitb (way k hlt) (yieldsb k hlt) hzb
          have := hotter_velocity hpos.symm c1 cc hphik hD (fun mu mu' q1 q2 => ⟨hmua _ hfit mu q1,
            C121_thinner g wa.terrain wa.terrain x0 ha he.strain _ _ hfit hthinb hpos.symm c1 cc mu mu' q1 q2⟩)
            (fun t0 tb q1 q2 => hstress _ _ _ (hin' k hlt) q1 q2) hv em
          linarith
        · have hq0 := hheat _ _ hq
          have hEa : 0 < a.effusionRate := by
            cases k with
            | zero =>
              rw [rejected_effusion hrej v x hv hpv]
              unfold World.stepEffusion
              rw [t.start] at hv ⊢
              have := hEa _ _ hv
              simp only [beq_iff_eq]
              rw [← this]
              exact hEa0
            | succ j =>
              have hit := (C06_position_time g (j + 1) ws t.accepted).2.1
              rw [(C14_rejected_step_moves_nothing g _ _ hrej).2.2.2.2.2.2.2.2 (by omega), t.effusion j (by omega)]
              exact hEa0
          have hrhok : 0 < g.models.lava.density (ws k).st := by
            rw [density_pos_only _ _ _ hpos.symm]; exact hrho _ (hin' k hlt)
          have hL := ha.latent
          have : 0 < q / (a.effusionRate * g.models.lava.density (ws k).st * g.models.lava.latentHeat) * g.dx := by positivity
          linarith
    have hle : b.st.pos ≤ a.st.pos := by
      rw [t.finalPos, t'.finalPos, p1]
      have : (k' : ℝ) ≤ k := by exact_mod_cast hkk
      have := mul_le_mul_of_nonneg_right this hdx.le
      show wa.st.pos + k' * g.dx ≤ wa.st.pos + k * g.dx
      linarith
    refine ⟨hle, ?_⟩
    rintro x ⟨y, hy⟩
    obtain ⟨i, hi, rfl⟩ := t'.shown _ (step_not_part _ _ (by simp)) _ _ hy
    refine ⟨(ws i).st.crystal, ?_⟩
    have := (t.row i (by omega)).crystal_fraction
    rwa [t.pos i (by omega), ← posb i hi.le] at this
end

/-- **C134**, for sensible set-ups. Take two set-ups in the same channel that differ in the viscosity and yield-strength models of the lava only, both sensible (C117), without strain rates,
    with a constant crystallisation rate, a steady crust, and the heat fluxes rain, conduction, radiation and forced convection, of which the first lava is nowhere thicker and nowhere
    stronger. Let both flows start at the same place with the same temperature and crystals, let the channel keep its configured depth, and let the thicker lava be able to flow there. If the
    step is small for the thinner run (by the velocities and densities in its table), then wherever both tables show a number the thinner lava shows a core temperature that is not lower, a
    crystal fraction that is not higher and a velocity that is not lower. And if the thinner flow always loses heat it runs at least as far, and its table is complete wherever the other is. -/
theorem C134_sensible (g : Integrator ℝ) (melt : MeltModel ℝ) (rel : RelModel ℝ) (bub : BubModel ℝ) (yld : YieldModel ℝ) (x0 r : ℝ) (n n' : Nat) (wa wb a b : World ℝ)
    (ha : Sensible g wa.terrain x0) (hb : Sensible (withRheology g melt rel bub yld) wa.terrain x0) (he : Everyday g x0 r)
    (hn' : NoStrainRate (withRheology g melt rel bub yld).models.lava)
    (hthin : NotThicker g.models.cryst.solidTemperature x0 g.models.lava (withRheology g melt rel bub yld).models.lava)
    (hT : wb.terrain = wa.terrain) (hvb : AtVent (withRheology g melt rel bub yld) wb) (hx : x0 ≤ wa.st.pos) (hsame : SameVent wa.st wb.st)
    (hla : wa.log = []) (hlb : wb.log = []) (hia : wa.iteration = 0) (hib : wb.iteration = 0)
    (hvent : (withRheology g melt rel bub yld).models.lava.yieldNotCompatible wb.terrain wb.st = .ok false)
    (hmass : g.massConservation = true → ∃ c, MassFrom g wa x0 c ∧ MassFrom (withRheology g melt rel bub yld) wb x0 c)
    (hrun : runLoop g n wa = some (.ok (), a)) (hrun' : runLoop (withRheology g melt rel bub yld) n' wb = some (.ok (), b))
    (hsmall : StepIsSmall g wa.terrain.depth (wa.st.temp - g.models.lava.buffer) r a.log) :
    (∀ x T T', BothShow a.log b.log "core_temperature" x T T' → T' ≤ T) ∧
    (∀ x phi phi', BothShow a.log b.log "crystal_fraction" x phi phi' → phi ≤ phi') ∧
    (∀ x v v', BothShow a.log b.log "mean_velocity" x v v' → v' ≤ v) ∧
    (wa.finished = false → (∀ x q, loggedNum a.log x "heat_budget" = some q → 0 < q) →
      b.st.pos ≤ a.st.pos ∧ ∀ x, CompleteRow b.log x → CompleteRow a.log x) := by
  have hsteep : Steeper wb.st.pos wa.terrain wb.terrain := by
    rw [hT]
    refine ⟨rfl, le_rfl, fun x y y' _ h h' _ => ?_⟩
    rw [h, Except.ok.injEq] at h'
    rw [h']
  exact gentler_sensible g g.models.lava.densityDre g.models.lava.latentHeat melt rel bub yld x0 r n n' wa wb a b ha (by rw [hT]; exact hb) he hn' hthin le_rfl le_rfl hsteep hvb hx hsame hla hlb hia hib hvent
    (fun h => (hmass h).imp fun c hc => ⟨c, rfl, hc⟩) hrun hrun' hsmall

/-- **C135**, for sensible set-ups. Take the same models on two grounds, with the same channel depth, of which the first is nowhere less steep, both sensible (C117) and with the models C134 allows.
    Let both flows start at the same place with the same temperature and crystals, and let the lava be able to flow on the flatter ground. If the step is small for the run on the steeper
    ground, then wherever both tables show a number the steeper shows a core temperature that is not lower, a crystal fraction that is not higher and a velocity that is not lower. And if the
    flow on the steeper ground always loses heat it runs at least as far, and its table is complete wherever the other is. -/
theorem C135_sensible (g : Integrator ℝ) (x0 r : ℝ) (n n' : Nat) (wa wb a b : World ℝ)
    (ha : Sensible g wa.terrain x0) (hb : Sensible g wb.terrain x0) (he : Everyday g x0 r)
    (hsteep : Steeper wb.st.pos wa.terrain wb.terrain) (hvb : AtVent g wb) (hx : x0 ≤ wa.st.pos) (hsame : SameVent wa.st wb.st)
    (hla : wa.log = []) (hlb : wb.log = []) (hia : wa.iteration = 0) (hib : wb.iteration = 0)
    (hvent : g.models.lava.yieldNotCompatible wb.terrain wb.st = .ok false)
    (hmass : g.massConservation = true → ∃ c, MassFrom g wa x0 c ∧ MassFrom g wb x0 c)
    (hrun : runLoop g n wa = some (.ok (), a)) (hrun' : runLoop g n' wb = some (.ok (), b))
    (hsmall : StepIsSmall g wa.terrain.depth (wa.st.temp - g.models.lava.buffer) r a.log) :
    (∀ x T T', BothShow a.log b.log "core_temperature" x T T' → T' ≤ T) ∧
    (∀ x phi phi', BothShow a.log b.log "crystal_fraction" x phi phi' → phi ≤ phi') ∧
    (∀ x v v', BothShow a.log b.log "mean_velocity" x v v' → v' ≤ v) ∧
    (wa.finished = false → (∀ x q, loggedNum a.log x "heat_budget" = some q → 0 < q) →
      b.st.pos ≤ a.st.pos ∧ ∀ x, CompleteRow b.log x → CompleteRow a.log x) := by
  refine gentler_sensible g g.models.lava.densityDre g.models.lava.latentHeat g.models.lava.melt g.models.lava.rel g.models.lava.bub g.models.lava.yld x0 r n n' wa wb a b ha hb he he.strain ?_ le_rfl le_rfl hsteep hvb hx hsame hla hlb hia hib hvent
    (fun h => (hmass h).imp fun c hc => ⟨c, rfl, hc⟩) hrun hrun' hsmall
  refine ⟨fun s _ _ _ h1 h2 => ⟨h1, h2⟩, fun s mu mu' _ _ _ _ _ h1 h2 => ?_, fun s t t' _ _ _ h1 h2 => ?_⟩
  · have h2 : g.models.lava.bulkViscosity s = .ok mu' := h2
    rw [h1, Except.ok.injEq] at h2
    exact h2.le
  · have h2 : g.models.lava.yieldStrength s = .ok t' := h2
    rw [h1, Except.ok.injEq] at h2
    exact h2.le
end PyFlowGo
