import Verif.Spec.Fresher
import Verif.Props.StrongerStep
import Verif.Props.Plausible
import Verif.Spec.Everyday
/-
  C121 for sensible set-ups (C117): every hypothesis is about parameters, the vent, or numbers shown in the result table.
-/
set_option linter.unusedSectionVars false
namespace PyFlowGo
open Spec

theorem noStrain_independent {l : Lava ℝ} (h : NoStrainRate l) : StrainIndependent l :=
  C22_which_models_are_strain_independent l h.1 h.2.1 h.2.2

theorem sensible_packing {x0 Ts : ℝ} {m : RelModel ℝ} (h : RelSensible x0 Ts m) : PackingChecked m := by
  cases m <;> first | exact trivial | exact h | exact h.1

theorem sensible_cover {c : CoverModel ℝ} (h : CoverSensible c) : CoverShrinks c := by
  cases c with
  | basic a f => exact h
  | bimodal x a1 a2 f1 f2 => exact ⟨⟨h.1, h.2.2.1, h.2.2.2.1⟩, h.2.1, h.2.2.2.2.1, h.2.2.2.2.2⟩

theorem ves_same (m : VesicleModel ℝ) {s s' : FlowState ℝ} (h : s.pos = s'.pos) : m.fraction s = m.fraction s' := by
  cases m <;> unfold VesicleModel.fraction <;> dsimp only <;> rw [h]

theorem compat_same (m : RelModel ℝ) {s s' : FlowState ℝ} (hp : s.pos = s'.pos) (hc : s.crystal = s'.crystal) :
    m.notCompatible s = m.notCompatible s' := by
  cases m <;> unfold RelModel.notCompatible <;> dsimp only <;> simp only [hc, ves_same _ hp]

theorem atPacking_same (m : RelModel ℝ) {s s' : FlowState ℝ} (hp : s.pos = s'.pos) (hc : s.crystal = s'.crystal) :
    AtPacking s m ↔ AtPacking s' m := by
  cases m <;> simp only [AtPacking, packingLimit, hc, ves_same _ hp]

/-- Position, temperature and crystal fraction decide whether a state is fit. -/
theorem fit_same {g : Integrator ℝ} {T : Terrain ℝ} {x0 : ℝ} {s s' : FlowState ℝ} (h : Fit g T x0 s) (hp : s'.pos = s.pos) (ht : s'.temp = s.temp)
    (hc : s'.crystal = s.crystal) : Fit g T x0 s' where
  downstream := by rw [hp]; exact h.downstream
  crystals := by rw [hc]; exact h.crystals
  hot := by rw [ht]; exact h.hot
  room := (compat_same _ hp hc).trans h.room
  off := fun k => h.off ((atPacking_same _ hp hc).mp k)
  ground := by rw [hp]; exact h.ground

/-- Fit states lie below the packing limit. -/
theorem fit_below {g : Integrator ℝ} {T : Terrain ℝ} {x0 : ℝ} {s : FlowState ℝ} (h : Fit g T x0 s) (hv : RelValid s g.models.lava.rel) :
    s.crystal < packingLimit s g.models.lava.rel := by
  have hroom : g.models.lava.rel.notCompatible s = .ok false := h.room
  have hoff := h.off
  have h0 := h.crystals
  generalize g.models.lava.rel = m at *
  by_cases he : m = .er
  · subst he
    obtain ⟨b, hb, hiff⟩ := C30_er_check_is_exact s
    rw [hroom] at hb
    injection hb with hb
    unfold RelModel.notCompatible at hroom
    dsimp only at hroom
    rw [div_of_ne (by norm_num), ok_bind, pure_ok_iff, ← Bool.not_eq_true, leB_real, not_le] at hroom
    unfold packingLimit
    norm_num at hroom ⊢
    linarith
  · obtain ⟨b, hb, hle⟩ := C30_check_is_packing m s he hv
    rw [hroom] at hb
    have hle := hle.mp (Except.ok.inj hb).symm
    refine lt_of_le_of_ne hle fun e => hoff ?_
    cases m <;> first | exact e | exact absurd rfl he | exact hv.elim

/-- **C121**, thinner. For sensible parameters without strain rates, hotter lava with fewer crystals at the same place is not more viscous. -/
theorem C121_thinner (g : Integrator ℝ) (A B : Terrain ℝ) (x0 : ℝ) (hg : Sensible g A x0) (hn : NoStrainRate g.models.lava) (s s' : FlowState ℝ)
    (hs : Fit g A x0 s) (hs' : Fit g B x0 s') (hp : s.pos = s'.pos) (hT : s'.temp ≤ s.temp) (hc : s.crystal ≤ s'.crystal) (mu mu' : ℝ)
    (h : g.models.lava.bulkViscosity s = .ok mu) (h' : g.models.lava.bulkViscosity s' = .ok mu') : mu ≤ mu' := by
  obtain ⟨a, b, c, ha, hb, hcc, rfl⟩ := (C33_bulk_is_product _ _ _).mp h
  obtain ⟨a', b', c', ha', hb', hcc', rfl⟩ := (C33_bulk_is_product _ _ _).mp h'
  have h1 : a ≤ a' := by
    rcases hT.eq_or_lt with e | e
    · have : g.models.lava.melt.viscosity s = g.models.lava.melt.viscosity s' := by
        cases g.models.lava.melt <;> unfold MeltModel.viscosity <;> dsimp only <;> rw [e]
      rw [ha, ha'] at this
      injection this with this
      exact this.le
    · exact (C28_melt_decreasing _ hg.melt.1 s' s (hg.melt.2 _ hs'.hot) e _ _ ha' ha).le
  have ha0 : 0 < a := melt_pos_of_ok _ hg.melt.1 _ _ ha
  have hb0 : 0 < b := by
    obtain ⟨b1, e1, e2⟩ := rel_total x0 _ _ hg.crystals s hs.downstream hs.crystals hs.hot hs.room hs.off
    rw [hb] at e1
    injection e1 with e1
    rw [e1]; exact e2
  have h2 : b ≤ b' := by
    have valid : RelValid s' g.models.lava.rel ∨ CostaModel g.models.lava.rel := by
      have hcr := hg.crystals
      have hne := hn
      unfold NoStrainRate at hne
      have hpos := hs'.downstream
      generalize g.models.lava.rel = m at *
      cases m with
      | er => exact Or.inl trivial
      | kd => exact Or.inl hcr
      | mp => exact Or.inl hcr
      | mpMueller => exact Or.inl hcr
      | mader => exact hcr.elim
      | bll => exact (hne.1 _ _ _ _ _ _ _ _ rfl).elim
      | ptp1 ves => exact Or.inl (hcr s' hpos)
      | ptp2 ves => exact Or.inl ⟨hcr.2 s' hpos, (hcr.1 s' hpos).2⟩
      | ptp3 ves => exact Or.inl (hcr s' hpos)
      | costa1 p =>
        right
        rcases hcr with rfl | rfl
        · exact Or.inl rfl
        · exact Or.inr (Or.inl rfl)
      | costa2 p =>
        right
        rcases hcr with rfl | rfl
        · exact Or.inr (Or.inr (Or.inl rfl))
        · exact Or.inr (Or.inr (Or.inr rfl))
    have eq : s.crystal = s'.crystal → b = b' := by
      intro e
      have hcr := hg.crystals
      have hne := hn
      unfold NoStrainRate at hne
      have : g.models.lava.rel.relative s = g.models.lava.rel.relative s' := by
        generalize g.models.lava.rel = m at *
        cases m <;> first | exact hcr.elim | exact (hne.1 _ _ _ _ _ _ _ _ rfl).elim | (unfold RelModel.relative; dsimp only; simp only [e, ves_same _ hp])
      rw [hb, hb'] at this
      injection this
    rcases hc.eq_or_lt with e | e
    · exact (eq e).le
    · rcases valid with hv | hv
      · have hlim := fit_below hs' hv
        let z : FlowState ℝ := { s' with crystal := s.crystal }
        have hz : g.models.lava.rel.relative z = g.models.lava.rel.relative s := by
          have hzc : z.crystal = s.crystal := rfl
          have hzp : z.pos = s.pos := hp.symm
          generalize g.models.lava.rel = m at *
          cases m <;> first | exact hv.elim | (unfold RelModel.relative; dsimp only; done) | (unfold RelModel.relative; dsimp only; simp only [hzc, ves_same _ hzp])
        have hvz : RelValid z g.models.lava.rel := by
          have hzp : z.pos = s'.pos := rfl
          generalize g.models.lava.rel = m at *
          cases m <;> simp only [RelValid, ves_same _ hzp] at hv ⊢ <;> (try exact hv)
        have hlz : packingLimit z g.models.lava.rel = packingLimit s' g.models.lava.rel := by
          have hzp : z.pos = s'.pos := rfl
          cases g.models.lava.rel <;> simp only [packingLimit, ves_same _ hzp]
        exact (C29_increasing_in_crystals _ z s'.crystal hvz hs.crystals e (by rw [hlz]; exact hlim) b b' (hz.trans hb) hb').le
      · obtain ⟨r1, r2, e1, e2, e3⟩ := C87_costa_increasing _ hv s s' hs.crystals e
        rw [hb] at e1
        rw [hb'] at e2
        injection e1 with e1
        injection e2 with e2
        rw [e1, e2]; exact e3.le
  have h3 : c = c' := by
    have : g.models.lava.bub.relative s = g.models.lava.bub.relative s' := by
      have hne := hn.2.2
      generalize g.models.lava.bub = m at *
      cases m with
      | mader => exact (hne _ _ _ _ _ rfl).elim
      | no => rfl
      | rigid ves => unfold BubModel.relative; dsimp only; simp only [ves_same _ hp]
      | defo ves => unfold BubModel.relative; dsimp only; simp only [ves_same _ hp]
    rw [hcc, hcc'] at this
    injection this
  have hc0 : 0 < c := by
    obtain ⟨c1, e1, e2⟩ := bub_total x0 _ _ _ hg.bubbles s hs.downstream hs.hot ⟨b, hb⟩
    rw [hcc] at e1
    injection e1 with e1
    rw [e1]; exact e2
  rw [← h3]
  have : 0 ≤ a' := ha0.le.trans h1
  gcongr

section
variable (g : Integrator ℝ) (x0 r : ℝ) (n n' : Nat) (wa wb a b : World ℝ)
  (ha : Sensible g wa.terrain x0) (hb : Sensible g wb.terrain x0) (he : Everyday g x0 r)
  (hva : AtVent g wa) (hvb : AtVent g wb) (hx : x0 ≤ wa.st.pos) (hfresh : Fresher r wa.st wb.st)
  (hla : wa.log = []) (hlb : wb.log = []) (hia : wa.iteration = 0) (hib : wb.iteration = 0)
  (hdrive : DrivesHarder g.models.lava wa.terrain wb.terrain fun x _ _ => x0 ≤ x)
  (hvent : g.models.lava.yieldNotCompatible wb.terrain wb.st = .ok false)
  (hmass : g.massConservation = true → ∃ c, MassFrom g wa x0 c ∧ MassFrom g wb x0 c)
  (hrun : runLoop g n wa = some (.ok (), a)) (hrun' : runLoop g n' wb = some (.ok (), b))
  (hsmall : StepIsSmall g wa.terrain.depth (wa.st.temp - g.models.lava.buffer) r a.log)

include ha hb he hva hvb hx hfresh hla hlb hia hib hdrive hvent hmass hrun hrun' hsmall

/-- **C128**, for sensible set-ups. Take a set-up that is sensible (C117) in two channels, without strain rates, with a constant crystallisation rate `r`, a steady
    crust, and the heat fluxes rain, conduction, radiation and forced convection. The two flows start at the same place; the first lava is not colder, and the second has at least the crystals
    the first would have after cooling as far. Both can flow where they start and the second moves there. Let the first channel be the same as the second, or drive the lava harder. If the step
    is small for the first run (by the velocities and densities in its table), then wherever both tables show a number the first shows a core temperature that is not lower, a crystal fraction
    that is not higher and a velocity that is not lower. And if its channel is not configured shorter and it always loses heat, the first flow runs at least as far, and its table is
    complete wherever the second is. -/
theorem C128_sensible :
    (∀ x T T', BothShow a.log b.log "core_temperature" x T T' → T' ≤ T) ∧
    (∀ x phi phi', BothShow a.log b.log "crystal_fraction" x phi phi' → phi ≤ phi') ∧
    (∀ x v v', BothShow a.log b.log "mean_velocity" x v v' → v' ≤ v) ∧
    (wb.terrain.maxLength ≤ wa.terrain.maxLength → wa.finished = false → (∀ x q, loggedNum a.log x "heat_budget" = some q → 0 < q) →
      b.st.pos ≤ a.st.pos ∧ ∀ x, CompleteRow b.log x → CompleteRow a.log x) := by
  have hl := noStrain_independent he.strain
  obtain ⟨hr0, hrate⟩ := he.rate
  have hdx := ha.step
  obtain ⟨p1, p2, p3⟩ := hfresh
  have hδ : 0 ≤ wb.st.crystal - wa.st.crystal - r * (wa.st.temp - wb.st.temp) := by linarith
  have hs3 : wb.st.crystal - wa.st.crystal = r * (wa.st.temp - wb.st.temp) + (wb.st.crystal - wa.st.crystal - r * (wa.st.temp - wb.st.temp)) := by ring
  have hxb : x0 ≤ wb.st.pos := by rw [p1]; exact hx
  have fa : Fit g wa.terrain x0 wa.st := ⟨hx, hva.crystals, hva.hot, hva.room, hva.off, hva.ground⟩
  have fb : Fit g wb.terrain x0 wb.st := ⟨hxb, hvb.crystals, hvb.hot, hvb.room, hvb.off, hvb.ground⟩
  -- the velocities at the vents
  obtain ⟨ka, hka⟩ := velocity_total ha hva.depth fa
  obtain ⟨va, xa, _, eva, _, _⟩ := hka wa.st.strain
  have eva : g.models.lava.meanVelocity wa.terrain wa.st = .ok (va, xa) := eva
  obtain ⟨kb, hkb⟩ := velocity_total hb hvb.depth fb
  obtain ⟨vb, xb, _, evb, _, _⟩ := hkb wb.st.strain
  have evb : g.models.lava.meanVelocity wb.terrain wb.st = .ok (vb, xb) := evb
  have hmub : ∀ s, Fit g wb.terrain x0 s → ∀ mu, g.models.lava.bulkViscosity s = .ok mu → 0 < mu := by
    intro s hs mu hm
    obtain ⟨m1, e1, e2⟩ := viscosity_total hb hs
    rw [hm] at e1; injection e1 with e1; rw [e1]; exact e2
  have hmua : ∀ s, Fit g wa.terrain x0 s → ∀ mu, g.models.lava.bulkViscosity s = .ok mu → 0 < mu := by
    intro s hs mu hm
    obtain ⟨m1, e1, e2⟩ := viscosity_total ha hs
    rw [hm] at e1; injection e1 with e1; rw [e1]; exact e2
  obtain ⟨va', xa', tb, ta, eva', hvle, htb, hta, hble, hvb0⟩ := driven_velocity hdrive hxb fb.crystals (hmub _ fb) evb hvent
  have hva0 : 0 < va := by
    refine (hvb0.trans_le hvle).trans_le (hotter_velocity p1.symm p2 ?_ fa.crystals hva.depth (fun mu mu' h1 h2 => ⟨hmua _ fa mu h1,
      C121_thinner g wa.terrain wb.terrain x0 ha he.strain wa.st wb.st fa fb p1.symm p2 ?_ mu mu' h1 h2⟩) ?_ eva eva')
    · have := mul_nonneg hr0.le (sub_nonneg.mpr p2); linarith
    · have := mul_nonneg hr0.le (sub_nonneg.mpr p2); linarith
    · intro t0 t1 h1 h2
      have hy := hvent
      unfold Lava.yieldNotCompatible at hy
      rw [h1, ok_bind, htb, ok_bind, pure_ok_iff, ← Bool.not_eq_true, leB_real, not_le] at hy
      have ht0 : 0 ≤ t0 := by
        obtain ⟨t1, y1, y2, _⟩ := C34_yield_nonneg g.models.lava.yld wb.st fb.crystals
        have h0 : g.models.lava.yld.strength wb.st = .ok t0 := h1
        rw [y1] at h0; injection h0 with h0; rw [← h0]; exact y2
      rw [h2, Except.ok.injEq] at hta
      rw [hta]
      exact ⟨by linarith, by linarith⟩
  have hEa : VentRate g wa (va * wa.terrain.width * wa.terrain.depth) := by
    intro v x h
    rw [eva, Except.ok.injEq, Prod.mk.injEq] at h
    rw [if_pos hia, h.1]
  have hEb : VentRate g wb (vb * wb.terrain.width * wb.terrain.depth) := by
    intro v x h
    rw [evb, Except.ok.injEq, Prod.mk.injEq] at h
    rw [if_pos hib, h.1]
  have hEa0 : 0 < va * wa.terrain.width * wa.terrain.depth := mul_pos (mul_pos hva0 ha.width) hva.depth
  have hEb0 : 0 < vb * wb.terrain.width * wb.terrain.depth := mul_pos (mul_pos hvb0 hb.width) hvb.depth
  have ra : Ready g wa := ⟨hva.depth, fun h => absurd hia h, fun h => by
    obtain ⟨c, h1, _⟩ := hmass h; exact ⟨_, h1.2.2 _ _ eva⟩⟩
  have rb : Ready g wb := ⟨hvb.depth, fun h => absurd hib h, fun h => by
    obtain ⟨c, _, h1⟩ := hmass h; exact ⟨_, h1.2.2 _ _ evb⟩⟩
  -- the regions: states of the tables
  obtain ⟨k, ws, d, t⟩ := run_table g hdx n wa a hla hrun _ hEa
  obtain ⟨k', vs, e, t'⟩ := run_table g hdx n' wb b hlb hrun' _ hEb
  have rowsa := fun i hi => (rows_fit ha fa ra t i hi).1
  have rowsb := fun i hi => (rows_fit hb fb rb t' i hi).1
  let R : ℝ → ℝ → ℝ → Prop := fun x T phi => ∀ s : FlowState ℝ, s.pos = x → s.temp = T → s.crystal = phi →
    Fit g wa.terrain x0 s ∧ s.temp ≤ wa.st.temp ∧ ∀ v y, g.models.lava.meanVelocity wa.terrain s = .ok (v, y) → 0 < v →
      g.dx * (g.models.fluxes.map (wattPerKelvin g.models wa.terrain.depth (wa.st.temp - g.models.lava.buffer))).sum ≤
        v * wa.terrain.depth * g.models.lava.density s * g.models.lava.latentHeat * r
  let R' : ℝ → ℝ → ℝ → Prop := fun x T phi => ∀ s : FlowState ℝ, s.pos = x → s.temp = T → s.crystal = phi →
    Fit g wb.terrain x0 s ∧ g.models.lava.yieldNotCompatible wb.terrain s = .ok false
  have hin : ∀ x T phi, loggedNum a.log x "core_temperature" = some T → loggedNum a.log x "crystal_fraction" = some phi → R x T phi := by
    intro x T phi h1 h2 s q1 q2 q3
    obtain ⟨i, hi, rfl⟩ := t.shown _ (step_not_part g _ (by simp)) _ _ h1
    rw [(t.row i hi).core_temperature, Option.some.injEq] at h1
    rw [(t.row i hi).crystal_fraction, Option.some.injEq] at h2
    have hfit := fit_same (rowsa i hi) q1 (by rw [q2, h1]) (by rw [q3, h2])
    have hpl := plausible_rows ha fa ra (fun h => by
      obtain ⟨c, h1, _⟩ := hmass h; exact ⟨_, h1.2.2 _ _ eva, mul_pos h1.1 hEa0⟩) (fun _ => hEa0) t i hi
    obtain ⟨y, y1, _, y2, _⟩ := hpl.core_temperature
    rw [(t.row i hi).core_temperature, Option.some.injEq] at y1
    refine ⟨hfit, by rw [q2, ← h1, y1]; exact y2, fun v y hv hv0 => ?_⟩
    have hsm := hsmall _ _ _ (t.row i hi).mean_velocity (t.row i hi).density
    have hv2 : g.models.lava.meanVelocity wa.terrain s = g.models.lava.meanVelocity wa.terrain (ws i).st := by
      have hs : g.models.lava.meanVelocity wa.terrain { s with strain := (ws i).st.strain, time := (ws i).st.time } = g.models.lava.meanVelocity wa.terrain (ws i).st := by
        congr 1
        cases hA : s; cases hB : (ws i).st
        rw [hA, hB] at q1
        rw [hA] at q2 q3
        rw [hB] at h1 h2
        dsimp only at q1 q2 q3 h1 h2 ⊢
        rw [q1, q2, q3, ← h1, ← h2]
      exact (meanVelocity_time g.models.lava wa.terrain s wa.terrain.maxLength (ws i).st.time).symm.trans
        ((meanVelocity_strain _ hl wa.terrain { s with time := (ws i).st.time } (ws i).st.strain).symm.trans hs)
    obtain ⟨z, hz⟩ := (t.made i hi).velocity
    rw [hv, hz, Except.ok.injEq, Prod.mk.injEq] at hv2
    rw [hv2.1, density_pos_only _ s (ws i).st q1]
    exact hsm
  have hin' : ∀ x T phi, loggedNum b.log x "core_temperature" = some T → loggedNum b.log x "crystal_fraction" = some phi → R' x T phi := by
    intro x T phi h1 h2 s q1 q2 q3
    obtain ⟨i, hi, rfl⟩ := t'.shown _ (step_not_part g _ (by simp)) _ _ h1
    rw [(t'.row i hi).core_temperature, Option.some.injEq] at h1
    rw [(t'.row i hi).crystal_fraction, Option.some.injEq] at h2
    have hfit := fit_same (rowsb i hi) q1 (by rw [q2, h1]) (by rw [q3, h2])
    refine ⟨hfit, ?_⟩
    have hyield : g.models.lava.yieldNotCompatible wb.terrain (vs i).st = .ok false := by
      cases i with
      | zero => rw [t'.start]; exact hvent
      | succ j =>
        have := ((C13_accepted_reason g _ _ (t'.accepted j (by omega))).2 (t'.accepted (j + 1) hi).1).2.2.1
        rwa [t'.terrain _ hi.le] at this
    have hy : g.models.lava.yieldNotCompatible wb.terrain s = g.models.lava.yieldNotCompatible wb.terrain (vs i).st := by
      unfold Lava.yieldNotCompatible Lava.basalStress Lava.yieldStrength
      have e1 : g.models.lava.yld.strength s = g.models.lava.yld.strength (vs i).st := by
        cases g.models.lava.yld <;> unfold YieldModel.strength <;> dsimp only <;> simp only [q2, q3, ← h1, ← h2, ves_same _ q1]
      rw [e1, q1, density_pos_only _ s (vs i).st q1]
    exact hy.trans hyield
  have drive : DrivesHarder g.models.lava wa.terrain wb.terrain R' :=
    ⟨hdrive.deep, hdrive.depth, fun s q hR h1 h2 => hdrive.stress s q (hR s rfl rfl rfl).1.downstream h1 h2⟩
  have hcover := sensible_cover ha.cover
  have hbetween : CrustBetween g.models R' := by
    intro s Tc hR hTc
    have hs := (hR s rfl rfl rfl).1
    obtain ⟨_, c2, _, c4⟩ := he.crust s Tc hs.downstream hTc
    refine ⟨he.air, c2, c4.trans ?_⟩
    unfold coreTemperature
    have := hs.hot
    linarith
  have hair : ∀ s Tc, R' s.pos s.temp s.crystal → g.models.crust.temperature s = .ok Tc → 1 ≤ Tc ∧ g.models.air.temp ≤ Tc ^ slippedExponent := by
    intro s Tc hR hTc
    obtain ⟨c1, _, c3, _⟩ := he.crust s Tc (hR s rfl rfl rfl).1.downstream hTc
    exact ⟨c1, c3⟩
  have hbase : ∀ base, base ≤ g.models.cryst.solidTemperature → ∀ x t phi, R' x t phi → base ≤ t := by
    intro base hb x t phi hR
    have := (hR ⟨phi, t, x, 0, 0⟩ rfl rfl rfl).1.hot
    have : g.models.cryst.solidTemperature < t := this
    linarith
  have hves : ∀ s, R s.pos s.temp s.crystal → 0 ≤ g.models.lava.vesicleFraction s ∧ g.models.lava.vesicleFraction s ≤ 1 := by
    intro s hR
    have := ha.vesicles s (hR s rfl rfl rfl).1.downstream
    exact ⟨this.1, this.2.le⟩
  have hloss : ∀ f ∈ g.models.fluxes, LosesNoMore g.models wa.terrain wb.terrain R' f := by
    obtain ⟨l1, l2, l3⟩ := C121_fluxes g.models wa.terrain wb.terrain R' hvb.depth hdrive.depth
    obtain ⟨l3, l4, l5⟩ := l3 hcover hbetween
    intro f hf
    have hev := he.fluxes f hf
    cases f with
    | rain => exact l1 _ _ _ hev
    | conduction base pct => exact l2 _ _ hev.1 (hbase _ hev.2)
    | radBasic => exact l3 _ _ hev
    | radTwoEmi => exact l4 _ _ _ hev.1 hev.2.1 hev.2.2
    | convection => exact l5 hev fun s Tc h1 h2 => (hair s Tc h1 h2).2
    | _ => exact hev.elim
  have hM : ∀ x t phi, R x t phi → t - g.models.lava.buffer ≤ wa.st.temp - g.models.lava.buffer := by
    intro x t phi hR
    have : t ≤ wa.st.temp := (hR ⟨phi, t, x, 0, 0⟩ rfl rfl rfl).2.1
    linarith
  have hM0 : 0 ≤ wa.st.temp - g.models.lava.buffer := by
    have := hva.hot
    have := ha.molten.1
    linarith
  have hks : List.Forall₂ (PerKelvin g.models wa.terrain R R') g.models.fluxes
      (g.models.fluxes.map (wattPerKelvin g.models wa.terrain.depth (wa.st.temp - g.models.lava.buffer))) := by
    obtain ⟨l1, l2, l3⟩ := C121_per_kelvin g.models wa.terrain R R' hva.depth
    obtain ⟨l3, l4, l5⟩ := l3 hcover hbetween he.steady _ hM
    rw [List.forall₂_map_right_iff, List.forall₂_same]
    intro f hf
    have hev := he.fluxes f hf
    cases f with
    | rain => exact l1 _ _ _ hev
    | conduction base pct => exact l2 _ _ hev.1 (hbase _ hev.2) hves
    | radBasic => exact l3 _ _ hev
    | radTwoEmi => exact l4 _ _ _ hev.1 hev.2.1 hev.2.2
    | convection => exact l5 hev hair
    | _ => exact hev.elim
  have hks0 : 0 ≤ (g.models.fluxes.map (wattPerKelvin g.models wa.terrain.depth (wa.st.temp - g.models.lava.buffer))).sum := by
    apply List.sum_nonneg
    intro q hq
    obtain ⟨f, hf, rfl⟩ := List.mem_map.mp hq
    have hev := he.fluxes f hf
    have hd := hva.depth
    cases f with
    | rain => exact le_refl (0 : ℝ)
    | conduction base pct =>
      have := hev.1
      show 0 ≤ 1.929 ^ 2 / (pct / 100 * wa.terrain.depth)
      positivity
    | radBasic sigma e =>
      have : 0 ≤ sigma * e := hev
      exact mul_nonneg this (by positivity)
    | radTwoEmi sigma e1 e2 =>
      exact mul_nonneg hev.1 (mul_nonneg (hev.2.1.trans hev.2.2) (by positivity))
    | convection => exact hev
    | _ => exact hev.elim
  have hthin : ThinnerWhenHotter g.models.lava R R' := by
    intro s s' mu mu' hR hR' hp hT hc h1 h2
    exact C121_thinner g wa.terrain wb.terrain x0 ha he.strain s s' (hR s rfl rfl rfl).1 (hR' s' rfl rfl rfl).1 hp hT hc mu mu' h1 h2
  have hstep : ∀ δ, 0 ≤ δ → ColderSlowerBy g wa.terrain wa.fluxRate (va * wa.terrain.width * wa.terrain.depth) R R' r δ (1 / g.dx) := by
    refine C128_small_step g wa.terrain wa.fluxRate _ R R' r (1 / g.dx) hr0 hrate hEa0 ha.latent hva.depth ?_ ?_ ?_ ?_ hthin ?_ _ hks0 hks ?_
    · intro hm flux s hf hR
      obtain ⟨c, ⟨c0, c1, c2⟩, _⟩ := hmass hm
      rw [c2 _ _ eva, Option.some.injEq] at hf
      rw [← hf]
      refine ⟨mul_pos c0 hEa0, ?_⟩
      rw [mul_comm]
      exact mul_le_mul_of_nonneg_left (c1 s (hR s rfl rfl rfl).1.downstream) hEa0.le
    · intro x T phi hR
      exact (hR ⟨phi, T, x, 0, 0⟩ rfl rfl rfl).1.crystals
    · intro s hR
      exact density_pos ha (hR s rfl rfl rfl).1.downstream
    · intro s mu hR h1
      exact hmua s (hR s rfl rfl rfl).1 mu h1
    · intro s t0 tb hR h1 h2
      obtain ⟨hs, hy⟩ := hR s rfl rfl rfl
      unfold Lava.yieldNotCompatible at hy
      obtain ⟨bb, hbb, _⟩ := stress_total hb hs.downstream hvb.depth
      rw [h1, ok_bind, hbb, ok_bind, pure_ok_iff, ← Bool.not_eq_true, leB_real, not_le] at hy
      have ht0 : 0 ≤ t0 := by
        obtain ⟨t1, y1, y2, _⟩ := C34_yield_nonneg g.models.lava.yld s hs.crystals
        have h0 : g.models.lava.yld.strength s = .ok t0 := h1
        rw [y1] at h0; injection h0 with h0; rw [← h0]; exact y2
      obtain ⟨aa, haa, hle⟩ := hdrive.stress s bb hs.downstream hbb (by linarith)
      rw [h2, Except.ok.injEq] at haa
      rw [haa]
      exact ⟨by linarith, by linarith⟩
    · intro s v y hR h1 h2
      obtain ⟨hs, _, h3⟩ := hR s rfl rfl rfl
      have h3 := h3 v y h1 h2
      have hrho := density_pos ha hs.downstream
      have hL := ha.latent
      have hd := hva.depth
      rw [div_le_div_iff₀ (by positivity) hdx]
      linarith
  have hmass' : g.massConservation = true → ∃ c, 0 < c ∧ wa.fluxRate = some (c * (va * wa.terrain.width * wa.terrain.depth)) ∧
      wb.fluxRate = some (c * (vb * wb.terrain.width * wb.terrain.depth)) := by
    intro hm
    obtain ⟨c, h1, h2⟩ := hmass hm
    exact ⟨c, h1.1, h1.2.2 _ _ eva, h2.2.2 _ _ evb⟩
  have hrho : ∀ s, R' s.pos s.temp s.crystal → 0 < g.models.lava.density s := fun s hR => density_pos hb (hR s rfl rfl rfl).1.downstream
  have hmuR' : ∀ s mu, R' s.pos s.temp s.crystal → g.models.lava.bulkViscosity s = .ok mu → 0 < mu := fun s mu hR => hmub s (hR s rfl rfl rfl).1 mu
  have hK : g.dx * (1 / g.dx) ≤ 1 := by
    have : g.dx * (1 / g.dx) = 1 := by field_simp
    exact this.le
  obtain ⟨c1, c2⟩ := C128_hotter g hdx n n' wa wb a b hla hlb hrun hrun' hl r hr0 hrate _ _ hEa hEb hEa0 hEb0 ha.latent _ hδ p1 p2 hs3 hmass' hva.crystals hvb.crystals hvent
    R R' hin hin' hrho hmuR' drive hloss _ (hstep _ hδ) hK
  refine ⟨c1, c2, ?_, ?_⟩
  · exact C128_faster g hdx n n' wa wb a b hla hlb hrun hrun' hl r hr0 hrate _ _ hEa hEb hEa0 hEb0 ha.latent _ hδ p1 p2 hs3 hmass' hva.crystals hvb.crystals hvent
      R R' hin hin' hrho hmuR' drive hloss _ (hstep _ hδ) hK (fun s mu hR => hmua s (hR s rfl rfl rfl).1 mu) hthin
  · intro hlen hfin hheat
    have far : b.st.pos ≤ a.st.pos → b.st.pos ≤ a.st.pos ∧ ∀ x, CompleteRow b.log x → CompleteRow a.log x := by
      refine fun hle => ⟨hle, ?_⟩
      rintro x ⟨y, hy⟩
      obtain ⟨i, hi, rfl⟩ := t'.shown _ (step_not_part g _ (by simp)) _ _ hy
      rw [t.finalPos, t'.finalPos, p1] at hle
      have hkk : (k' : ℝ) ≤ k := le_of_mul_le_mul_right (by linarith) hdx
      have hkk : k' ≤ k := by exact_mod_cast hkk
      refine ⟨(ws i).st.crystal, ?_⟩
      have := (t.row i (by omega)).crystal_fraction
      rwa [t.pos i (by omega), ← p1, ← t'.pos i hi.le] at this
    apply far
    refine C128_farther g hdx n n' wa wb a b hla hlb hrun hrun' hl r hr0 hrate _ _ hEa hEb hEa0 hEb0 ha.latent _ hδ p1 p2 hs3 hmass' hva.crystals hvb.crystals hvent
      R R' hin hin' hrho hmuR' drive hloss _ (hstep _ hδ) hK (sensible_packing ha.crystals) hlen hfin (fun v x h => by rw [eva, Except.ok.injEq, Prod.mk.injEq] at h; rw [← h.1]; exact hva0) ?_ hheat
    intro mu hnc htemp hm
    have hpos : x0 ≤ a.st.pos := by
      rw [t.finalPos]
      have : 0 ≤ (k : ℝ) * g.dx := by positivity
      linarith
    have hcr : 0 ≤ a.st.crystal := by
      have h1 := crystals_ge t.accepted k le_rfl
      rw [t.start] at h1
      rcases t.ended with h2 | h2
      · rw [h2]; exact hva.crystals.trans h1
      · have := hva.crystals
        rw [(C14_rejected_step_moves_nothing g _ _ h2).2.1]; linarith
    by_cases hpk : AtPacking a.st g.models.lava.rel
    · obtain ⟨e1, he1⟩ := packed_viscosity ha a.st hpos hcr htemp hnc hpk
      rw [hm] at he1
      cases he1
    · have valid : ∃ m, g.models.lava.bulkViscosity a.st = .ok m ∧ 0 < m := by
        obtain ⟨a1, ha1, ha0⟩ := C28_melt_positive _ ha.melt.1 a.st (ha.melt.2 _ htemp)
        obtain ⟨b1, hb1, hb0⟩ := rel_total x0 _ _ ha.crystals a.st hpos hcr htemp hnc hpk
        obtain ⟨c1, hc1, hc0⟩ := bub_total x0 _ _ _ ha.bubbles a.st hpos htemp ⟨b1, hb1⟩
        exact ⟨a1 * b1 * c1, (C33_bulk_is_product _ _ _).mpr ⟨a1, b1, c1, ha1, hb1, hc1, rfl⟩, mul_pos (mul_pos ha0 hb0) hc0⟩
      obtain ⟨m1, e1, e2⟩ := valid
      rw [hm, Except.ok.injEq] at e1
      rw [e1]; exact e2

end

section
variable (g : Integrator ℝ) (x0 r : ℝ) (n n' : Nat) (wa wb a b : World ℝ)
  (ha : Sensible g wa.terrain x0) (hb : Sensible g wb.terrain x0) (he : Everyday g x0 r)
  (hva : AtVent g wa) (hvb : AtVent g wb) (hx : x0 ≤ wa.st.pos) (hsame : SameVent wa.st wb.st)
  (hla : wa.log = []) (hlb : wb.log = []) (hia : wa.iteration = 0) (hib : wb.iteration = 0)
  (hdrive : DrivesHarder g.models.lava wa.terrain wb.terrain fun x _ _ => x0 ≤ x)
  (hvent : g.models.lava.yieldNotCompatible wb.terrain wb.st = .ok false)
  (hmass : g.massConservation = true → ∃ c, MassFrom g wa x0 c ∧ MassFrom g wb x0 c)
  (hrun : runLoop g n wa = some (.ok (), a)) (hrun' : runLoop g n' wb = some (.ok (), b))
  (hsmall : StepIsSmall g wa.terrain.depth (wa.st.temp - g.models.lava.buffer) r a.log)

include ha hb he hva hvb hx hsame hla hlb hia hib hdrive hvent hmass hrun hrun' hsmall

/-- **C121**, for sensible set-ups. Take a set-up that is sensible (C117) in two channels, without strain rates, with a constant crystallisation rate, a steady
    crust, and the heat fluxes rain, conduction, radiation and forced convection. Let both flows start from the same lava, which can flow in both and moves in the
    second, and let the first channel drive the lava harder. If the step is small for the first run (by the velocities and densities in its table),
    then wherever both tables show a number the first shows a core temperature that is not lower, a crystal fraction that is not higher and a velocity that is not lower.
    And if its channel is not configured shorter and it always loses heat, the first flow runs at least as far, and its table is complete wherever the second is. -/
theorem C121_sensible :
    (∀ x T T', BothShow a.log b.log "core_temperature" x T T' → T' ≤ T) ∧
    (∀ x phi phi', BothShow a.log b.log "crystal_fraction" x phi phi' → phi ≤ phi') ∧
    (∀ x v v', BothShow a.log b.log "mean_velocity" x v v' → v' ≤ v) ∧
    (wb.terrain.maxLength ≤ wa.terrain.maxLength → wa.finished = false → (∀ x q, loggedNum a.log x "heat_budget" = some q → 0 < q) →
      b.st.pos ≤ a.st.pos ∧ ∀ x, CompleteRow b.log x → CompleteRow a.log x) :=
  C128_sensible g x0 r n n' wa wb a b ha hb he hva hvb hx ⟨hsame.1, hsame.2.1.le, by rw [hsame.2.1, hsame.2.2]; simp⟩ hla hlb hia hib hdrive hvent hmass hrun hrun' hsmall

end

end PyFlowGo
