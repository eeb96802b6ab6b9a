import Verif.Props.HarsherFluxes
/-
  C122 for sensible set-ups (C117): every hypothesis is about parameters, the vent, or numbers shown in the result table.
-/
set_option linter.unusedSectionVars false
namespace PyFlowGo
open Spec

theorem sameLava_fit {g g' : Integrator ℝ} (hs : EqualLava g g') {T : Terrain ℝ} {x0 : ℝ} {s : FlowState ℝ} (h : Fit g T x0 s) : Fit g' T x0 s := by
  obtain ⟨m', rfl⟩ := sameLava_eq hs
  exact ⟨h.downstream, h.crystals, h.hot, h.room, h.off, h.ground⟩

theorem sameLava_symm {g g' : Integrator ℝ} (hs : EqualLava g g') : EqualLava g' g := ⟨hs.step.symm, hs.switch.symm, hs.lava.symm, hs.cryst.symm⟩

/-- Two states at the same position, temperature and crystal fraction move alike. -/
theorem velocity_atState {l : Lava ℝ} (hl : StrainIndependent l) (T : Terrain ℝ) {s s' : FlowState ℝ} (q1 : s.pos = s'.pos) (q2 : s.temp = s'.temp) (q3 : s.crystal = s'.crystal) :
    l.meanVelocity T s = l.meanVelocity T s' := by
  have hs : l.meanVelocity T { s with strain := s'.strain, time := s'.time } = l.meanVelocity T s' := by
    congr 1
    cases hA : s; cases hB : s'
    rw [hA, hB] at q1 q2 q3
    dsimp only at q1 q2 q3 ⊢
    rw [q1, q2, q3]
  exact (meanVelocity_time l T s T.maxLength s'.time).symm.trans
    ((meanVelocity_strain _ hl T { s with time := s'.time } s'.strain).symm.trans hs)

theorem yield_atState (l : Lava ℝ) (T : Terrain ℝ) {s s' : FlowState ℝ} (q1 : s.pos = s'.pos) (q2 : s.temp = s'.temp) (q3 : s.crystal = s'.crystal) :
    l.yieldNotCompatible T s = l.yieldNotCompatible T s' := by
  unfold Lava.yieldNotCompatible Lava.basalStress Lava.yieldStrength
  have e1 : l.yld.strength s = l.yld.strength s' := by
    cases l.yld <;> unfold YieldModel.strength <;> dsimp only <;> simp only [q2, q3, ves_same _ q1]
  rw [e1, q1, density_pos_only _ s s' q1]

section
variable (g g' : Integrator ℝ) (x0 r : ℝ) (n n' : Nat) (w a b : World ℝ) (hs : EqualLava g g')
  (hg : Sensible g w.terrain x0) (hg' : Sensible g' w.terrain x0) (he : Everyday g x0 r) (he' : Everyday g' x0 r) (hh : Harsher g.models g'.models)
  (hv : AtVent g w) (hx : x0 ≤ w.st.pos) (hlog : w.log = []) (hit : w.iteration = 0)
  (hvent : g.models.lava.yieldNotCompatible w.terrain w.st = .ok false)
  (hmass : g.massConservation = true → ∃ c, MassFrom g w x0 c)
  (hrun : runLoop g n w = some (.ok (), a)) (hrun' : runLoop g' n' w = some (.ok (), b))
  (hsmall : StepIsSmall g w.terrain.depth (w.st.temp - g.models.lava.buffer) r a.log)

include hs hg hg' he he' hh hv hx hlog hit hvent hmass hrun hrun' hsmall

/-- **C122**, for sensible set-ups. Take two set-ups of the same lava in the same channel, both sensible (C117), without strain rates, with a constant crystallisation rate, a steady
    crust, and the heat fluxes rain, conduction, radiation and forced convection, of which the second has the harsher surroundings. Let both flows start from the same lava, which moves.
    If the step is small for the milder run (by the velocities and densities in its table), then wherever both tables show a number the second shows a core temperature that is not
    higher, a crystal fraction that is not lower and a velocity that is not higher. And if the milder flow always loses heat, the second does not run farther: the table of the
    milder one is complete wherever that of the second is. -/
theorem C122_sensible :
    (∀ x T T', BothShow a.log b.log "core_temperature" x T T' → T' ≤ T) ∧
    (∀ x phi phi', BothShow a.log b.log "crystal_fraction" x phi phi' → phi ≤ phi') ∧
    (∀ x v v', BothShow a.log b.log "mean_velocity" x v v' → v' ≤ v) ∧
    ((∀ x q, loggedNum a.log x "heat_budget" = some q → 0 < q) → b.st.pos ≤ a.st.pos ∧ ∀ x, CompleteRow b.log x → CompleteRow a.log x) := by
  have hl := noStrain_independent he.strain
  obtain ⟨hr0, hrate⟩ := he.rate
  have hdx := hg.step
  have fit0 : Fit g w.terrain x0 w.st := ⟨hx, hv.crystals, hv.hot, hv.room, hv.off, hv.ground⟩
  obtain ⟨kv, hkv⟩ := velocity_total hg hv.depth fit0
  obtain ⟨v0, y0, _, ev, _, _⟩ := hkv w.st.strain
  have ev : g.models.lava.meanVelocity w.terrain w.st = .ok (v0, y0) := ev
  have hmu : ∀ s, Fit g w.terrain x0 s → ∀ mu, g.models.lava.bulkViscosity s = .ok mu → 0 < mu := by
    intro s hs mu hm
    obtain ⟨m1, e1, e2⟩ := viscosity_total hg hs
    rw [hm] at e1; injection e1 with e1; rw [e1]; exact e2
  have drive0 : DrivesHarder g.models.lava w.terrain w.terrain fun x _ _ => x0 ≤ x := ⟨hv.depth, le_rfl, fun s q _ h1 _ => ⟨q, h1, le_rfl⟩⟩
  obtain ⟨_, _, _, _, _, _, _, _, _, hv0⟩ := driven_velocity drive0 hx hv.crystals (hmu _ fit0) ev hvent
  have hE : VentRate g w (v0 * w.terrain.width * w.terrain.depth) := by
    intro v x h
    rw [ev, Except.ok.injEq, Prod.mk.injEq] at h
    rw [if_pos hit, h.1]
  have hE' : VentRate g' w (v0 * w.terrain.width * w.terrain.depth) := by
    unfold VentRate at hE ⊢
    rw [hs.lava]; exact hE
  have hE0 : 0 < v0 * w.terrain.width * w.terrain.depth := mul_pos (mul_pos hv0 hg.width) hv.depth
  have ready : Ready g w := ⟨hv.depth, fun h => absurd hit h, fun h => by
    obtain ⟨c, h1⟩ := hmass h; exact ⟨_, h1.2.2 _ _ ev⟩⟩
  have ready' : Ready g' w := ⟨hv.depth, fun h => absurd hit h, by rw [hs.switch]; exact ready.flux⟩
  obtain ⟨k, ws, d, t⟩ := run_table g hdx n w a hlog hrun _ hE
  obtain ⟨k', vs, e, t'⟩ := run_table g' hg'.step n' w b hlog hrun' _ hE'
  have rowsa := fun i hi => (rows_fit hg fit0 ready t i hi).1
  have rowsb := fun i hi => sameLava_fit (sameLava_symm hs) (rows_fit hg' (sameLava_fit hs fit0) ready' t' i hi).1
  let R : ℝ → ℝ → ℝ → Prop := fun x T phi => ∀ s : FlowState ℝ, s.pos = x → s.temp = T → s.crystal = phi →
    Fit g w.terrain x0 s ∧ s.temp ≤ w.st.temp ∧ ∀ v y, g.models.lava.meanVelocity w.terrain s = .ok (v, y) → 0 < v →
      g.dx * (g.models.fluxes.map (wattPerKelvin g.models w.terrain.depth (w.st.temp - g.models.lava.buffer))).sum ≤
        v * w.terrain.depth * g.models.lava.density s * g.models.lava.latentHeat * r
  let R' : ℝ → ℝ → ℝ → Prop := fun x T phi => ∀ s : FlowState ℝ, s.pos = x → s.temp = T → s.crystal = phi →
    Fit g w.terrain x0 s ∧ g.models.lava.yieldNotCompatible w.terrain s = .ok false
  have hin : ∀ x T phi, loggedNum a.log x "core_temperature" = some T → loggedNum a.log x "crystal_fraction" = some phi → R x T phi := by
    intro x T phi h1 h2 s q1 q2 q3
    obtain ⟨i, hi, rfl⟩ := t.shown _ (step_not_part g _ (by simp)) _ _ h1
    rw [(t.row i hi).core_temperature, Option.some.injEq] at h1
    rw [(t.row i hi).crystal_fraction, Option.some.injEq] at h2
    have hfit := fit_same (rowsa i hi) q1 (by rw [q2, h1]) (by rw [q3, h2])
    have hpl := plausible_rows hg fit0 ready (fun h => by
      obtain ⟨c, h1⟩ := hmass h; exact ⟨_, h1.2.2 _ _ ev, mul_pos h1.1 hE0⟩) (fun _ => hE0) t i hi
    obtain ⟨y, y1, _, y2, _⟩ := hpl.core_temperature
    rw [(t.row i hi).core_temperature, Option.some.injEq] at y1
    refine ⟨hfit, by rw [q2, ← h1, y1]; exact y2, fun v y hv hv0 => ?_⟩
    have hsm := hsmall _ _ _ (t.row i hi).mean_velocity (t.row i hi).density
    have hv2 := velocity_atState hl w.terrain q1 (q2.trans h1.symm) (q3.trans h2.symm)
    obtain ⟨z, hz⟩ := (t.made i hi).velocity
    rw [hv, hz, Except.ok.injEq, Prod.mk.injEq] at hv2
    rw [hv2.1, density_pos_only _ s (ws i).st q1]
    exact hsm
  have hin' : ∀ x T phi, loggedNum b.log x "core_temperature" = some T → loggedNum b.log x "crystal_fraction" = some phi → R' x T phi := by
    intro x T phi h1 h2 s q1 q2 q3
    obtain ⟨i, hi, rfl⟩ := t'.shown _ (step_not_part g' _ (by simp)) _ _ h1
    rw [(t'.row i hi).core_temperature, Option.some.injEq] at h1
    rw [(t'.row i hi).crystal_fraction, Option.some.injEq] at h2
    refine ⟨fit_same (rowsb i hi) q1 (by rw [q2, h1]) (by rw [q3, h2]), ?_⟩
    have hyield : g.models.lava.yieldNotCompatible w.terrain (vs i).st = .ok false := by
      cases i with
      | zero => rw [t'.start]; exact hvent
      | succ j =>
        have := ((C13_accepted_reason g' _ _ (t'.accepted j (by omega))).2 (t'.accepted (j + 1) hi).1).2.2.1
        rwa [t'.terrain _ hi.le, hs.lava] at this
    exact (yield_atState _ _ q1 (q2.trans h1.symm) (q3.trans h2.symm)).trans hyield
  have hcover := sensible_cover hg.cover
  have hbetween : CrustBetween g.models R' := by
    intro s Tc hR hTc
    have hs := (hR s rfl rfl rfl).1
    obtain ⟨_, c2, _, c4⟩ := he.crust s Tc hs.downstream hTc
    refine ⟨he.air, c2, c4.trans ?_⟩
    unfold coreTemperature
    have := hs.hot
    linarith
  have hair : ∀ s Tc, R' s.pos s.temp s.crystal → g.models.crust.temperature s = .ok Tc → 1 ≤ Tc ∧ g.models.air.temp ≤ Tc ^ slippedExponent := by
    intro s Tc hR hTc
    obtain ⟨c1, _, c3, _⟩ := he.crust s Tc (hR s rfl rfl rfl).1.downstream hTc
    exact ⟨c1, c3⟩
  have hbase : ∀ base, base ≤ g.models.cryst.solidTemperature → ∀ x t phi, R' x t phi → base ≤ t := by
    intro base hb x t phi hR
    have := (hR ⟨phi, t, x, 0, 0⟩ rfl rfl rfl).1.hot
    have : g.models.cryst.solidTemperature < t := this
    linarith
  have hves : ∀ s, R s.pos s.temp s.crystal → 0 ≤ g.models.lava.vesicleFraction s ∧ g.models.lava.vesicleFraction s ≤ 1 := by
    intro s hR
    have := hg.vesicles s (hR s rfl rfl rfl).1.downstream
    exact ⟨this.1, this.2.le⟩
  have hloss : LosesMore g.models g'.models w.terrain R' := by
    intro width s qs' hw hR
    have hf := (hR s rfl rfl rfl).1
    exact C122_loses_more hs he he' hcover (sensible_cover hg'.cover) hh hv.depth width s qs' hw ⟨hf.downstream, hf.hot⟩
  have hM : ∀ x t phi, R x t phi → t - g.models.lava.buffer ≤ w.st.temp - g.models.lava.buffer := by
    intro x t phi hR
    have : t ≤ w.st.temp := (hR ⟨phi, t, x, 0, 0⟩ rfl rfl rfl).2.1
    linarith
  have hM0 : 0 ≤ w.st.temp - g.models.lava.buffer := by
    have := hv.hot
    have := hg.molten.1
    linarith
  have hks : List.Forall₂ (PerKelvin g.models w.terrain R R') g.models.fluxes
      (g.models.fluxes.map (wattPerKelvin g.models w.terrain.depth (w.st.temp - g.models.lava.buffer))) := by
    obtain ⟨l1, l2, l3⟩ := C121_per_kelvin g.models w.terrain R R' hv.depth
    obtain ⟨l3, l4, l5⟩ := l3 hcover hbetween he.steady _ hM
    rw [List.forall₂_map_right_iff, List.forall₂_same]
    intro f hf
    have hev := he.fluxes f hf
    cases f with
    | rain => exact l1 _ _ _ hev
    | conduction base pct => exact l2 _ _ hev.1 (hbase _ hev.2) hves
    | radBasic => exact l3 _ _ hev
    | radTwoEmi => exact l4 _ _ _ hev.1 hev.2.1 hev.2.2
    | convection => exact l5 hev hair
    | _ => exact hev.elim
  have hks0 : 0 ≤ (g.models.fluxes.map (wattPerKelvin g.models w.terrain.depth (w.st.temp - g.models.lava.buffer))).sum := by
    apply List.sum_nonneg
    intro q hq
    obtain ⟨f, hf, rfl⟩ := List.mem_map.mp hq
    have hev := he.fluxes f hf
    have hd := hv.depth
    cases f with
    | rain => exact le_refl (0 : ℝ)
    | conduction base pct =>
      have := hev.1
      show 0 ≤ 1.929 ^ 2 / (pct / 100 * w.terrain.depth)
      positivity
    | radBasic sigma e =>
      have : 0 ≤ sigma * e := hev
      exact mul_nonneg this (by positivity)
    | radTwoEmi sigma e1 e2 =>
      exact mul_nonneg hev.1 (mul_nonneg (hev.2.1.trans hev.2.2) (by positivity))
    | convection => exact hev
    | _ => exact hev.elim
  have hthin : ThinnerWhenHotter g.models.lava R R' := by
    intro s s' mu mu' hR hR' hp hT hc h1 h2
    exact C121_thinner g w.terrain w.terrain x0 hg he.strain s s' (hR s rfl rfl rfl).1 (hR' s' rfl rfl rfl).1 hp hT hc mu mu' h1 h2
  have hstep : ColderSlower g w.terrain w.fluxRate (v0 * w.terrain.width * w.terrain.depth) R R' r (1 / g.dx) := by
    refine C121_small_step g w.terrain w.fluxRate _ R R' r (1 / g.dx) hr0 hrate hE0 hg.latent hv.depth ?_ ?_ ?_ ?_ hthin ?_ _ hks0 hks ?_
    · intro hm flux s hf hR
      obtain ⟨c, c0, c1, c2⟩ := hmass hm
      rw [c2 _ _ ev, Option.some.injEq] at hf
      rw [← hf]
      refine ⟨mul_pos c0 hE0, ?_⟩
      rw [mul_comm]
      exact mul_le_mul_of_nonneg_left (c1 s (hR s rfl rfl rfl).1.downstream) hE0.le
    · intro x T phi hR
      exact (hR ⟨phi, T, x, 0, 0⟩ rfl rfl rfl).1.crystals
    · intro s hR
      exact density_pos hg (hR s rfl rfl rfl).1.downstream
    · intro s mu hR h1
      exact hmu s (hR s rfl rfl rfl).1 mu h1
    · intro s t0 tb hR h1 h2
      obtain ⟨hs, hy⟩ := hR s rfl rfl rfl
      unfold Lava.yieldNotCompatible at hy
      rw [h1, ok_bind, h2, ok_bind, pure_ok_iff, ← Bool.not_eq_true, leB_real, not_le] at hy
      have ht0 : 0 ≤ t0 := by
        obtain ⟨t1, y1, y2, _⟩ := C34_yield_nonneg g.models.lava.yld s hs.crystals
        have h0 : g.models.lava.yld.strength s = .ok t0 := h1
        rw [y1] at h0; injection h0 with h0; rw [← h0]; exact y2
      exact ⟨by linarith, hy.le⟩
    · intro s v y hR h1 h2
      obtain ⟨hs, _, h3⟩ := hR s rfl rfl rfl
      have h3 := h3 v y h1 h2
      have hrho := density_pos hg hs.downstream
      have hL := hg.latent
      have hd := hv.depth
      rw [div_le_div_iff₀ (by positivity) hdx]
      linarith
  have hfr : g.massConservation = true → ∀ flux, w.fluxRate = some flux → 0 < flux := by
    intro hm flux hf
    obtain ⟨c, c0, _, c2⟩ := hmass hm
    rw [c2 _ _ ev, Option.some.injEq] at hf
    rw [← hf]
    exact mul_pos c0 hE0
  have hrho : ∀ s, R' s.pos s.temp s.crystal → 0 < g.models.lava.density s := fun s hR => density_pos hg (hR s rfl rfl rfl).1.downstream
  have hcrust : ∀ s, R' s.pos s.temp s.crystal → ∃ Tc, g.models.crust.temperature s = .ok Tc := by
    intro s hR
    have hf := (hR s rfl rfl rfl).1
    obtain ⟨tc, _, _, h⟩ := hg.crust s hf.downstream hf.hot
    exact ⟨tc, h⟩
  have hK : g.dx * (1 / g.dx) ≤ 1 := by
    have : g.dx * (1 / g.dx) = 1 := by field_simp
    exact this.le
  obtain ⟨c1, c2⟩ := C122_colder g g' hs hdx n n' w a b hlog hrun hrun' hl r hr0 hrate _ hE hE0 hv.depth hg.latent hfr R R' hin hin' hrho hcrust hloss _ hstep hK
  refine ⟨c1, c2, ?_, fun hheat => ?_⟩
  · exact C122_slower g g' hs hdx n n' w a b hlog hrun hrun' hl r hr0 hrate _ hE hE0 hv.depth hg.latent hfr R R' hin hin' hrho hcrust hloss _ hstep hK hv.crystals hvent
      (fun s mu hR => hmu s (hR s rfl rfl rfl).1 mu) hthin
  · have far : b.st.pos ≤ a.st.pos → b.st.pos ≤ a.st.pos ∧ ∀ x, CompleteRow b.log x → CompleteRow a.log x := by
      refine fun hle => ⟨hle, ?_⟩
      rintro x ⟨y, hy⟩
      obtain ⟨i, hi, rfl⟩ := t'.shown _ (step_not_part g' _ (by simp)) _ _ hy
      rw [t.finalPos, t'.finalPos, hs.step] at hle
      have hkk : (k' : ℝ) ≤ k := le_of_mul_le_mul_right (by linarith) hdx
      have hkk : k' ≤ k := by exact_mod_cast hkk
      refine ⟨(ws i).st.crystal, ?_⟩
      have := (t.row i (by omega)).crystal_fraction
      have e' := t'.pos i hi.le
      rw [hs.step] at e'
      rwa [t.pos i (by omega), ← e'] at this
    apply far
    refine C122_shorter g g' hs hdx n n' w a b hlog hrun hrun' hl r hr0 hrate _ hE hE0 hv.depth hg.latent hfr R R' hin hin' hrho hcrust hloss _ hstep hK hv.crystals
      (sensible_packing hg.crystals) ?_ hheat
    intro mu hnc htemp hm
    have hpos : x0 ≤ a.st.pos := by
      rw [t.finalPos]
      have : 0 ≤ (k : ℝ) * g.dx := by positivity
      linarith
    have hcr : 0 ≤ a.st.crystal := by
      have h1 := crystals_ge t.accepted k le_rfl
      rw [t.start] at h1
      rcases t.ended with h2 | h2
      · rw [h2]; exact hv.crystals.trans h1
      · have := hv.crystals
        rw [(C14_rejected_step_moves_nothing g _ _ h2).2.1]; linarith
    by_cases hpk : AtPacking a.st g.models.lava.rel
    · obtain ⟨e1, he1⟩ := packed_viscosity hg a.st hpos hcr htemp hnc hpk
      rw [hm] at he1
      cases he1
    · obtain ⟨a1, ha1, ha0⟩ := C28_melt_positive _ hg.melt.1 a.st (hg.melt.2 _ htemp)
      obtain ⟨b1, hb1, hb0⟩ := rel_total x0 _ _ hg.crystals a.st hpos hcr htemp hnc hpk
      obtain ⟨c1, hc1, hc0⟩ := bub_total x0 _ _ _ hg.bubbles a.st hpos htemp ⟨b1, hb1⟩
      have e1 := (C33_bulk_is_product g.models.lava a.st (a1 * b1 * c1)).mpr ⟨a1, b1, c1, ha1, hb1, hc1, rfl⟩
      rw [hm, Except.ok.injEq] at e1
      rw [e1]; exact mul_pos (mul_pos ha0 hb0) hc0

end

end PyFlowGo
