import Verif.Proofs.Stronger
import Verif.Proofs.Alike
/-
  C121 and C128: a flow that is driven harder (a deeper channel, steeper ground, a larger effusion rate), or whose lava leaves the vent hotter or with
  fewer crystals, is nowhere colder, nowhere more crystallised, nowhere slower, and not shorter.
-/
set_option linter.unusedSectionVars false
namespace PyFlowGo
open Spec

section
variable (g : Integrator ℝ) (hdx : 0 < g.dx) (n n' : Nat) (wa wb a b : World ℝ) (hwa : wa.log = []) (hwb : wb.log = [])
  (h : runLoop g n wa = some (.ok (), a)) (h' : runLoop g n' wb = some (.ok (), b))
  (hl : StrainIndependent g.models.lava) (r : ℝ) (hr0 : 0 < r) (hrate : ∀ s, g.models.cryst.rate s = .ok r)
  (Ea Eb : ℝ) (hEa : VentRate g wa Ea) (hEb : VentRate g wb Eb) (hEa0 : 0 < Ea) (hEb0 : 0 < Eb) (hL : 0 < g.models.lava.latentHeat)
  (δ : ℝ) (hδ : 0 ≤ δ) (hs1 : wb.st.pos = wa.st.pos) (hs2 : wb.st.temp ≤ wa.st.temp)
  (hs3 : wb.st.crystal - wa.st.crystal = r * (wa.st.temp - wb.st.temp) + δ)
  (hmass : g.massConservation = true → ∃ c, 0 < c ∧ wa.fluxRate = some (c * Ea) ∧ wb.fluxRate = some (c * Eb))
  (hphia : 0 ≤ wa.st.crystal) (hphi : 0 ≤ wb.st.crystal) (hvent : g.models.lava.yieldNotCompatible wb.terrain wb.st = .ok false)
  (R R' : ℝ → ℝ → ℝ → Prop)
  (hin : ∀ x T phi, loggedNum a.log x "core_temperature" = some T → loggedNum a.log x "crystal_fraction" = some phi → R x T phi)
  (hin' : ∀ x T phi, loggedNum b.log x "core_temperature" = some T → loggedNum b.log x "crystal_fraction" = some phi → R' x T phi)
  (hrho : ∀ s, R' s.pos s.temp s.crystal → 0 < g.models.lava.density s)
  (hmu : ∀ s mu, R' s.pos s.temp s.crystal → g.models.lava.bulkViscosity s = .ok mu → 0 < mu)
  (hdrive : DrivesHarder g.models.lava wa.terrain wb.terrain R')
  (hloss : ∀ f ∈ g.models.fluxes, LosesNoMore g.models wa.terrain wb.terrain R' f)
  (K : ℝ) (hlip : ColderSlowerBy g wa.terrain wa.fluxRate Ea R R' r δ K) (hsmall : g.dx * K ≤ 1)

include hdx hwa hwb h h' hl hr0 hrate hEa hEb hEa0 hEb0 hδ hL hs1 hs2 hs3 hmass hphia hphi hvent hin hin' hrho hmu hdrive hloss hlip hsmall

theorem fresher_tables : ∃ k k' ws vs d e, RunTable g wa a Ea k ws d ∧ RunTable g wb b Eb k' vs e ∧
    ∀ i, i ≤ k → i ≤ k' → (vs i).st.temp ≤ (ws i).st.temp ∧
      (vs i).st.crystal - (ws i).st.crystal = r * ((ws i).st.temp - (vs i).st.temp) + δ := by
  obtain ⟨k, ws, d, t⟩ := run_table g hdx n wa a hwa h Ea hEa
  obtain ⟨k', vs, e, t'⟩ := run_table g hdx n' wb b hwb h' Eb hEb
  exact ⟨k, k', ws, vs, d, e, t, t', fresher_states hl hdx hr0 hrate hEa0 hEb0 hL hs1 hs2 hs3 hmass hphi hvent hrho hmu hdrive hloss hlip hsmall t t'
    (fun i hi => hin _ _ _ (t.row i hi).core_temperature (t.row i hi).crystal_fraction)
    (fun i hi => hin' _ _ _ (t'.row i hi).core_temperature (t'.row i hi).crystal_fraction)⟩

/-- **C128**, hotter. Take two finished runs (fresh logs, the same positive step, the same models) of a lava whose rheology does not use the strain
    rate and that crystallises at a constant rate `r`, from the same place. The first lava leaves the vent not colder than the second, and the second has `δ` crystals
    more than the first would have after cooling to the same temperature; the second can move at its vent. Let the first channel drive the lava at least as hard and lose, per cubic metre
    carried, no more heat (the same channel will do). If the step is small for the flow equations in the first channel (`dx K <= 1`, as in C118), then wherever both tables show a core
    temperature the first is not colder, and wherever both show a crystal fraction the first does not show a larger one. -/
theorem C128_hotter :
    (∀ x T T', BothShow a.log b.log "core_temperature" x T T' → T' ≤ T) ∧
    (∀ x phi phi', BothShow a.log b.log "crystal_fraction" x phi phi' → phi ≤ phi') := by
  obtain ⟨k, k', ws, vs, d, e, t, t', hc⟩ := fresher_tables g hdx n n' wa wb a b hwa hwb h h' hl r hr0 hrate Ea Eb hEa hEb hEa0 hEb0 hL δ hδ hs1 hs2 hs3 hmass
    hphia hphi hvent R R' hin hin' hrho hmu hdrive hloss K hlip hsmall
  have same : ∀ i j, i < k → j < k' → (ws i).st.pos = (vs j).st.pos → i = j := by
    intro i j hi hj hp
    rw [t.pos i hi.le, t'.pos j hj.le, hs1] at hp
    have : (i : ℝ) = j := mul_right_cancel₀ hdx.ne' (by linarith)
    exact_mod_cast this
  refine ⟨fun x T T' hb => ?_, fun x phi phi' hb => ?_⟩
  · obtain ⟨h1, h2⟩ := hb
    obtain ⟨i, hi, rfl⟩ := t.shown _ (step_not_part g _ (by simp)) _ _ h1
    obtain ⟨j, hj, hp⟩ := t'.shown _ (step_not_part _ _ (by simp)) _ _ h2
    obtain rfl := same i j hi hj hp
    have r1 := (t.row i hi).core_temperature
    have r2 := (t'.row i hj).core_temperature
    rw [h1, Option.some.injEq] at r1
    rw [← hp, h2, Option.some.injEq] at r2
    rw [r1, r2]
    exact (hc i hi.le hj.le).1
  · obtain ⟨h1, h2⟩ := hb
    obtain ⟨i, hi, rfl⟩ := t.shown _ (step_not_part g _ (by simp)) _ _ h1
    obtain ⟨j, hj, hp⟩ := t'.shown _ (step_not_part _ _ (by simp)) _ _ h2
    obtain rfl := same i j hi hj hp
    have r1 := (t.row i hi).crystal_fraction
    have r2 := (t'.row i hj).crystal_fraction
    rw [h1, Option.some.injEq] at r1
    rw [← hp, h2, Option.some.injEq] at r2
    obtain ⟨c1, c2⟩ := hc i hi.le hj.le
    have := mul_nonneg hr0.le (sub_nonneg.mpr c1)
    rw [r1, r2]
    linarith

/-- **C128**, faster. If moreover lava that is hotter and has fewer crystals is not more viscous, then wherever both tables show a mean velocity the
    first is not slower. -/
theorem C128_faster
    (hmuR : ∀ s mu, R s.pos s.temp s.crystal → g.models.lava.bulkViscosity s = .ok mu → 0 < mu)
    (hthin : ∀ s s' mu mu', R s.pos s.temp s.crystal → R' s'.pos s'.temp s'.crystal → s.pos = s'.pos → s'.temp ≤ s.temp → s.crystal ≤ s'.crystal →
      g.models.lava.bulkViscosity s = .ok mu → g.models.lava.bulkViscosity s' = .ok mu' → mu ≤ mu') :
    ∀ x v v', BothShow a.log b.log "mean_velocity" x v v' → v' ≤ v := by
  obtain ⟨k, k', ws, vs, d, e, t, t', hc⟩ := fresher_tables g hdx n n' wa wb a b hwa hwb h h' hl r hr0 hrate Ea Eb hEa hEb hEa0 hEb0 hL δ hδ hs1 hs2 hs3 hmass
    hphia hphi hvent R R' hin hin' hrho hmu hdrive hloss K hlip hsmall
  rintro x v v' ⟨h1, h2⟩
  obtain ⟨i, hi, rfl⟩ := t.shown _ (step_not_part g _ (by simp)) _ _ h1
  obtain ⟨j, hj, hp⟩ := t'.shown _ (step_not_part _ _ (by simp)) _ _ h2
  have hij : i = j := by
    rw [t.pos i hi.le, t'.pos j hj.le, hs1] at hp
    have : (i : ℝ) = j := mul_right_cancel₀ hdx.ne' (by linarith)
    exact_mod_cast this
  subst hij
  have r1 := (t.row i hi).mean_velocity
  have r2 := (t'.row i hj).mean_velocity
  rw [h1, Option.some.injEq] at r1
  rw [← hp, h2, Option.some.injEq] at r2
  obtain ⟨c1, c2⟩ := hc i hi.le hj.le
  have c3 : (ws i).st.crystal ≤ (vs i).st.crystal := by
    have := mul_nonneg hr0.le (sub_nonneg.mpr c1)
    linarith
  have hRa := hin _ _ _ (t.row i hi).core_temperature (t.row i hi).crystal_fraction
  have hRb := hin' _ _ _ (t'.row i hj).core_temperature (t'.row i hj).crystal_fraction
  have hyield : g.models.lava.yieldNotCompatible wb.terrain (vs i).st = .ok false := by
    cases i with
    | zero => rw [t'.start]; exact hvent
    | succ j =>
      have := ((C13_accepted_reason g _ _ (t'.accepted j (by omega))).2 (t'.accepted (j + 1) hj).1).2.2.1
      rwa [t'.terrain _ hj.le] at this
  have hphib : 0 ≤ (vs i).st.crystal := by
    have := crystals_ge t'.accepted i hj.le
    rw [t'.start] at this
    linarith
  have hphiai : 0 ≤ (ws i).st.crystal := by
    have := crystals_ge t.accepted i hi.le
    rw [t.start] at this
    linarith
  obtain ⟨xb, hvb⟩ := (t'.made i hj).velocity
  obtain ⟨xa, hva⟩ := (t.made i hi).velocity
  obtain ⟨_, _, tb, ta, _, _, hb, ha, hle, _⟩ := driven_velocity hdrive hRb hphib (fun mu => hmu _ mu hRb) hvb hyield
  obtain ⟨u0, ub, mu', y0, yb, ym, _, _, _, ev', _⟩ := (meanVelocity_ok_iff _ _ _ _ _).mp hvb
  obtain ⟨t0, tb1, mu, z0, zb, zm, _, _, _, ev, _⟩ := (meanVelocity_ok_iff _ _ _ _ _).mp hva
  obtain rfl : tb = ub := by rw [hb] at yb; injection yb
  have eb : tb1 = ta := by
    have : g.models.lava.basalStress wa.terrain (ws i).st = g.models.lava.basalStress wa.terrain (vs i).st := by
      unfold Lava.basalStress
      rw [hp, density_pos_only _ _ _ hp]
    rw [zb, ha] at this
    injection this
  subst eb
  have hmu1 := hmuR _ _ hRa zm
  have hmule := hthin _ _ _ _ hRa hRb hp c1 c3 zm ym
  have hyle : t0 ≤ u0 := C34_yield_grows g.models.lava.yld (ws i).st (vs i).st hphiai c3 c1 hp.symm t0 u0 z0 y0
  have ht0 : 0 ≤ t0 := by
    obtain ⟨t1, y1, y2, _⟩ := C34_yield_nonneg g.models.lava.yld (ws i).st hphiai
    have h0 : g.models.lava.yld.strength (ws i).st = .ok t0 := z0
    rw [y1] at h0; injection h0 with h0; rw [← h0]; exact y2
  have hlt : u0 < tb := by
    unfold Lava.yieldNotCompatible at hyield
    rw [y0, ok_bind, hb, ok_bind, pure_ok_iff, ← Bool.not_eq_true, leB_real] at hyield
    exact not_le.mp hyield
  have htb : 0 < tb := by linarith
  have hmu2 : 0 < mu' := hmu1.trans_le hmule
  rw [r1, r2, ev, ev']
  have s1 : binghamVelocity wb.terrain.depth tb mu' u0 ≤ binghamVelocity wb.terrain.depth tb mu' t0 := by
    rcases hyle.eq_or_lt with rfl | hlt2
    · exact le_rfl
    · exact (bingham_strictAnti_yield hdrive.deep htb hmu2 ht0 hlt2 hlt.le).le
  have s2 : binghamVelocity wb.terrain.depth tb mu' t0 ≤ binghamVelocity wb.terrain.depth tb mu t0 := by
    unfold binghamVelocity
    rw [bingham_factor]
    have := hdrive.deep
    have : 0 ≤ t0 / tb := by positivity
    gcongr
  exact (s1.trans s2).trans (bingham_mono hdrive.deep hdrive.depth htb hle hmu1 ht0 (by linarith))

/-- **C128**, farther. If moreover the relative-viscosity model tests for packing, the first channel is not configured shorter, the bulk viscosity at the end
    of the first flow is positive (if the lava is above the solidus there and not packed), and the first lava moves at its vent and its table shows no heat budget that is zero or negative, then the first flow runs at least as far. -/
theorem C128_farther (hpack : PackingChecked g.models.lava.rel) (hlen : wb.terrain.maxLength ≤ wa.terrain.maxLength)
    (hfin0 : wa.finished = false) (hmoves : ∀ v x, g.models.lava.meanVelocity wa.terrain wa.st = .ok (v, x) → 0 < v)
    (hmua : ∀ mu, g.models.lava.notCompatible a.st = .ok false → g.models.cryst.solidTemperature < a.st.temp → g.models.lava.bulkViscosity a.st = .ok mu → 0 < mu)
    (hheat : ∀ x q, loggedNum a.log x "heat_budget" = some q → 0 < q) : b.st.pos ≤ a.st.pos := by
  obtain ⟨k, k', ws, vs, d, e, t, t', hc⟩ := fresher_tables g hdx n n' wa wb a b hwa hwb h h' hl r hr0 hrate Ea Eb hEa hEb hEa0 hEb0 hL δ hδ hs1 hs2 hs3 hmass
    hphia hphi hvent R R' hin hin' hrho hmu hdrive hloss K hlip hsmall
  rw [t.finalPos, t'.finalPos, hs1]
  suffices hk : k' ≤ k by
    have : (k' : ℝ) ≤ k := by exact_mod_cast hk
    have := mul_le_mul_of_nonneg_right this hdx.le
    linarith
  by_contra hlt
  have hlt : k < k' := by omega
  obtain ⟨c1, c2⟩ := hc k le_rfl hlt.le
  have c3 : (ws k).st.crystal ≤ (vs k).st.crystal := by
    have := mul_nonneg hr0.le (sub_nonneg.mpr c1)
    linarith
  have hpos : (vs k).st.pos = (ws k).st.pos := by rw [t.pos k le_rfl, t'.pos k hlt.le, hs1]
  have hphik : 0 ≤ (ws k).st.crystal := by
    have := crystals_ge t.accepted k le_rfl
    rw [t.start] at this
    linarith
  have hphib : 0 ≤ (vs k).st.crystal := hphik.trans c3
  have hacc' := t'.accepted k hlt
  have hrow' := t'.row k hlt
  have hRb := hin' _ _ _ hrow'.core_temperature hrow'.crystal_fraction
  have hyield : g.models.lava.yieldNotCompatible wb.terrain (vs k).st = .ok false := by
    cases k with
    | zero => rw [t'.start]; exact hvent
    | succ j =>
      have := ((C13_accepted_reason g _ _ (t'.accepted j (by omega))).2 hacc'.1).2.2.1
      rwa [t'.terrain _ hlt.le] at this
  obtain ⟨xb, hvb⟩ := (t'.made k hlt).velocity
  obtain ⟨va, xa, tb, ta, hva, hvle, hb, ha, hble, hvb0⟩ := driven_velocity hdrive hRb hphib (fun mu => hmu _ mu hRb) hvb hyield
  rcases t.ended with hend | hrej
  · have hfin : (ws k).finished = true := by rw [← hend]; exact t.finished
    cases k with
    | zero =>
      rw [t.start, hfin0] at hfin
      cases hfin
    | succ j =>
      have hreason := (C13_accepted_reason g _ _ (t.accepted j (by omega))).1 hfin
      obtain ⟨n1, n2, n3, n4⟩ := (C13_accepted_reason _ _ _ (t'.accepted j (by omega))).2 hacc'.1
      rw [t.terrain _ le_rfl] at hreason
      rw [t'.terrain _ (by omega)] at n3 n4
      rcases hreason with h1 | h1 | h1 | h1
      · linarith
      · exact checked_fewer _ hpack _ _ hpos.symm c3 n2 h1
      · have hn : g.models.lava.yieldNotCompatible wa.terrain (vs (j + 1)).st = .ok false := by
          unfold Lava.yieldNotCompatible at n3 ⊢
          obtain ⟨t0, h3, n3⟩ := bind_ok_iff.mp n3
          rw [hb, ok_bind, pure_ok_iff, ← Bool.not_eq_true, leB_real] at n3
          rw [h3, ok_bind, ha, ok_bind, pure_ok_iff, ← Bool.not_eq_true, leB_real]
          exact fun hc => n3 (hble.trans hc)
        exact yield_fewer _ _ _ _ hphik hpos c3 c1 hn h1
      · rw [← hpos] at h1
        linarith
  · rcases rejected_cases hrej with ⟨v, x, hv, hle⟩ | ⟨v, x, q, hv, hpv, hq, hne, hgrow⟩
    · cases k with
      | zero =>
        have hva : ∃ v' x', g.models.lava.meanVelocity (ws 0).terrain (ws 0).st = .ok (v', x') ∧ 0 < v' := by
          rw [t.start] at hv ⊢
          exact ⟨v, x, hv, hmoves _ _ hv⟩
        rw [hv] at hva
        obtain ⟨v', x', hv', hA⟩ := hva
        injection hv' with hv'
        have := congrArg Prod.fst hv'
        dsimp only at this
        linarith
      | succ j =>
        have hst : a.st = { (ws (j + 1)).st with strain := a.st.strain } := by
          obtain ⟨_, h1, h2, h3, h4, _⟩ := C14_rejected_step_moves_nothing g _ _ hrej
          dsimp only
          rw [← h1, ← h2, ← h3, ← h4]
        have hvis : ∀ mu, g.models.lava.bulkViscosity (ws (j + 1)).st = .ok mu → 0 < mu := by
          intro mu hm
          obtain ⟨f1, f2, _, _⟩ := (C13_accepted_reason g _ _ (t.accepted j (by omega))).2 hrej.1
          apply hmua
          · rw [hst]
            exact (notCompatible_strain _ _ _).trans f2
          · rw [hst]
            exact f1
          · rw [hst, ← hm]
            exact hl _ _
        have := C24_next_step_moves g _ _ (t.accepted j (by omega)) hrej.1 (by rw [t.terrain j (by omega)]; exact hdrive.deep.trans_le hdrive.depth) hvis
          (fun t0 ht => by
            obtain ⟨t1, y1, y2, _⟩ := C34_yield_nonneg g.models.lava.yld (ws (j + 1)).st hphik
            have ht : g.models.lava.yld.strength (ws (j + 1)).st = .ok t0 := ht
            rw [y1] at ht; injection ht with ht; rw [← ht]; exact y2) v x hv
        linarith
    · have hq0 := hheat _ _ hq
      have hEa : 0 < a.effusionRate := by
        cases k with
        | zero =>
          rw [rejected_effusion hrej v x hv hpv]
          unfold World.stepEffusion
          rw [t.start] at hv ⊢
          have := hEa _ _ hv
          simp only [beq_iff_eq]
          rw [← this]
          exact hEa0
        | succ j =>
          have hit := (C06_position_time g (j + 1) ws t.accepted).2.1
          rw [(C14_rejected_step_moves_nothing g _ _ hrej).2.2.2.2.2.2.2.2 (by omega), t.effusion j (by omega)]
          exact hEa0
      have hrhok : 0 < g.models.lava.density (ws k).st := by
        rw [density_pos_only _ _ _ hpos.symm]; exact hrho _ hRb
      have : 0 < q / (a.effusionRate * g.models.lava.density (ws k).st * g.models.lava.latentHeat) * g.dx := by positivity
      linarith
end
end PyFlowGo
