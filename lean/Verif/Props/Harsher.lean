import Verif.Proofs.Harsher
import Verif.Props.StrongerStep
/-
  C122: in harsher surroundings a flow is nowhere hotter, nowhere less crystallised, nowhere faster, and not longer.
-/
set_option linter.unusedSectionVars false
namespace PyFlowGo
open Spec

/-- The flow with other air, crust, cover and heat fluxes. -/
def inSurroundings (g : Integrator ℝ) (m' : Models ℝ) : Integrator ℝ :=
  { g with models := { g.models with air := m'.air, crust := m'.crust, cover := m'.cover, fluxes := m'.fluxes } }

theorem sameLava_eq {g g' : Integrator ℝ} (hs : EqualLava g g') : ∃ m', g' = inSurroundings g m' := by
  refine ⟨g'.models, ?_⟩
  obtain ⟨dx, m, c⟩ := g
  obtain ⟨dx', m', c'⟩ := g'
  obtain ⟨l, ai, cr, co, cy, fl⟩ := m
  obtain ⟨l', ai', cr', co', cy', fl'⟩ := m'
  obtain ⟨rfl, rfl, rfl, rfl⟩ := hs
  rfl

section
variable (g g' : Integrator ℝ) (hs : EqualLava g g') (hdx : 0 < g.dx)
  (n n' : Nat) (w a b : World ℝ) (hw : w.log = [])
  (h : runLoop g n w = some (.ok (), a)) (h' : runLoop g' n' w = some (.ok (), b))
  (hl : StrainIndependent g.models.lava) (r : ℝ) (hr0 : 0 < r) (hrate : ∀ s, g.models.cryst.rate s = .ok r)
  (E : ℝ) (hE : VentRate g w E) (hE0 : 0 < E) (hD : 0 < w.terrain.depth) (hL : 0 < g.models.lava.latentHeat)
  (hfr : g.massConservation = true → ∀ flux, w.fluxRate = some flux → 0 < flux)
  (R R' : ℝ → ℝ → ℝ → Prop)
  (hin : ∀ x T phi, loggedNum a.log x "core_temperature" = some T → loggedNum a.log x "crystal_fraction" = some phi → R x T phi)
  (hin' : ∀ x T phi, loggedNum b.log x "core_temperature" = some T → loggedNum b.log x "crystal_fraction" = some phi → R' x T phi)
  (hrho : ∀ s, R' s.pos s.temp s.crystal → 0 < g.models.lava.density s)
  (hcrust : ∀ s, R' s.pos s.temp s.crystal → ∃ Tc, g.models.crust.temperature s = .ok Tc)
  (hloss : LosesMore g.models g'.models w.terrain R')
  (K : ℝ) (hlip : ColderSlower g w.terrain w.fluxRate E R R' r K) (hsmall : g.dx * K ≤ 1)

include hs hdx hw h h' hl hr0 hrate hE hE0 hD hL hfr hin hin' hrho hcrust hloss hlip hsmall

/-- The tables of the two runs, with the comparison of their states. -/
theorem harsher_tables : ∃ k k' ws vs d e, RunTable g w a E k ws d ∧ RunTable g' w b E k' vs e ∧
    ∀ i, i ≤ k → i ≤ k' → (vs i).st.temp ≤ (ws i).st.temp ∧
      (vs i).st.crystal - (ws i).st.crystal = r * ((ws i).st.temp - (vs i).st.temp) := by
  obtain ⟨k, ws, d, t⟩ := run_table g hdx n w a hw h E hE
  obtain ⟨k', vs, e, t'⟩ := run_table g' (by rw [hs.step]; exact hdx) n' w b hw h' E (by unfold VentRate at hE ⊢; rw [hs.lava]; exact hE)
  exact ⟨k, k', ws, vs, d, e, t, t', harsher_states hs hl hdx hr0 hrate hE0 hD hL hfr hrho hcrust hloss hlip hsmall t t'
    (fun i hi => hin _ _ _ (t.row i hi).core_temperature (t.row i hi).crystal_fraction)
    (fun i hi => hin' _ _ _ (t'.row i hi).core_temperature (t'.row i hi).crystal_fraction)⟩

/-- **C122**, colder. Take a finished run (fresh log, positive step) of a lava whose rheology does not use the strain rate and that crystallises at a constant
    rate `r`, and a run of the same lava from the same vent in the same channel in surroundings that take more heat. If the step is small for the flow equations of
    the milder run (as in C118), then wherever both tables show a core temperature the second is not hotter, and wherever both show a crystal fraction the second does not show a
    smaller one. -/
theorem C122_colder :
    (∀ x T T', BothShow a.log b.log "core_temperature" x T T' → T' ≤ T) ∧
    (∀ x phi phi', BothShow a.log b.log "crystal_fraction" x phi phi' → phi ≤ phi') := by
  obtain ⟨m', rfl⟩ := sameLava_eq hs
  obtain ⟨k, k', ws, vs, d, e, t, t', hc⟩ := harsher_tables g (inSurroundings g m') hs hdx n n' w a b hw h h' hl r hr0 hrate E hE hE0 hD hL hfr R R'
    hin hin' hrho hcrust hloss K hlip hsmall
  have same : ∀ i j, i < k → j < k' → (ws i).st.pos = (vs j).st.pos → i = j := by
    intro i j hi hj hp
    rw [t.pos i hi.le, t'.pos j hj.le] at hp
    have hp : w.st.pos + i * g.dx = w.st.pos + j * g.dx := hp
    have : (i : ℝ) = j := mul_right_cancel₀ hdx.ne' (by linarith)
    exact_mod_cast this
  refine ⟨fun x T T' hb => ?_, fun x phi phi' hb => ?_⟩
  · obtain ⟨h1, h2⟩ := hb
    obtain ⟨i, hi, rfl⟩ := t.shown _ (step_not_part g _ (by simp)) _ _ h1
    obtain ⟨j, hj, hp⟩ := t'.shown _ (step_not_part _ _ (by simp)) _ _ h2
    obtain rfl := same i j hi hj hp
    have r1 := (t.row i hi).core_temperature
    have r2 := (t'.row i hj).core_temperature
    rw [h1, Option.some.injEq] at r1
    rw [← hp, h2, Option.some.injEq] at r2
    rw [r1, r2]
    exact (hc i hi.le hj.le).1
  · obtain ⟨h1, h2⟩ := hb
    obtain ⟨i, hi, rfl⟩ := t.shown _ (step_not_part g _ (by simp)) _ _ h1
    obtain ⟨j, hj, hp⟩ := t'.shown _ (step_not_part _ _ (by simp)) _ _ h2
    obtain rfl := same i j hi hj hp
    have r1 := (t.row i hi).crystal_fraction
    have r2 := (t'.row i hj).crystal_fraction
    rw [h1, Option.some.injEq] at r1
    rw [← hp, h2, Option.some.injEq] at r2
    obtain ⟨c1, c2⟩ := hc i hi.le hj.le
    have := mul_nonneg hr0.le (sub_nonneg.mpr c1)
    rw [r1, r2]
    linarith

/-- **C122**, shorter. If moreover the vent has no negative crystal fraction, the relative-viscosity model tests for packing, the bulk viscosity at the end of the milder flow is
    positive (if the lava is above the solidus there and not packed), and its table shows no heat budget that is zero or negative, then the flow in harsher surroundings
    does not run farther. -/
theorem C122_shorter (hphi : 0 ≤ w.st.crystal) (hpack : PackingChecked g.models.lava.rel)
    (hmu : ∀ mu, g.models.lava.notCompatible a.st = .ok false → g.models.cryst.solidTemperature < a.st.temp → g.models.lava.bulkViscosity a.st = .ok mu → 0 < mu)
    (hheat : ∀ x q, loggedNum a.log x "heat_budget" = some q → 0 < q) : b.st.pos ≤ a.st.pos := by
  obtain ⟨m', rfl⟩ := sameLava_eq hs
  obtain ⟨k, k', ws, vs, d, e, t, t', hc⟩ := harsher_tables g (inSurroundings g m') hs hdx n n' w a b hw h h' hl r hr0 hrate E hE hE0 hD hL hfr R R'
    hin hin' hrho hcrust hloss K hlip hsmall
  have edx : (inSurroundings g m').dx = g.dx := rfl
  rw [t.finalPos, t'.finalPos, edx]
  suffices hk : k' ≤ k by
    have : (k' : ℝ) ≤ k := by exact_mod_cast hk
    have := mul_le_mul_of_nonneg_right this hdx.le
    linarith
  by_contra hlt
  have hlt : k < k' := by omega
  obtain ⟨c1, c2⟩ := hc k le_rfl hlt.le
  have c3 : (ws k).st.crystal ≤ (vs k).st.crystal := by
    have := mul_nonneg hr0.le (sub_nonneg.mpr c1)
    linarith
  have hpos : (vs k).st.pos = (ws k).st.pos := by rw [t.pos k le_rfl, t'.pos k hlt.le]; rfl
  have hphik : 0 ≤ (ws k).st.crystal := by
    have := crystals_ge t.accepted k le_rfl
    rw [t.start] at this
    linarith
  have hacc' := t'.accepted k hlt
  have hrow' := t'.row k hlt
  have hrho' := hrho _ (hin' _ _ _ hrow'.core_temperature hrow'.crystal_fraction)
  rw [density_pos_only _ _ _ hpos] at hrho'
  rcases t.ended with hend | hrej
  · -- the last accepted step of the first flow ended it
    have hfin : (ws k).finished = true := by rw [← hend]; exact t.finished
    cases k with
    | zero =>
      have h1 : (vs 0).finished = false := hacc'.1
      rw [t'.start, ← t.start, hfin] at h1
      cases h1
    | succ j =>
      have hreason := (C13_accepted_reason g _ _ (t.accepted j (by omega))).1 hfin
      obtain ⟨n1, n2, n3, n4⟩ := (C13_accepted_reason _ _ _ (t'.accepted j (by omega))).2 hacc'.1
      rw [t.terrain _ le_rfl] at hreason
      rw [t'.terrain _ (by omega)] at n3 n4
      rcases hreason with h1 | h1 | h1 | h1
      · have n1 : g.models.cryst.solidTemperature < (vs (j + 1)).st.temp := n1
        linarith
      · exact checked_fewer _ hpack _ _ hpos.symm c3 n2 h1
      · exact yield_fewer _ _ _ _ hphik hpos c3 c1 n3 h1
      · rw [← hpos] at h1
        linarith
  · -- the first flow gave up a step
    rcases rejected_cases hrej with ⟨v, x, hv, hle⟩ | ⟨v, x, q, hv, hpv, hq, hne, hgrow⟩
    · cases k with
      | zero =>
        obtain ⟨A⟩ := acceptedFacts hacc'
        have hv' : ∃ v' x', g.models.lava.meanVelocity (vs 0).terrain (vs 0).st = .ok (v', x') ∧ 0 < v' := ⟨_, _, A.hv, A.vpos⟩
        rw [t'.start, ← t.start, hv] at hv'
        obtain ⟨v', x', hv', hA⟩ := hv'
        injection hv' with hv'
        have := congrArg Prod.fst hv'
        dsimp only at this
        linarith
      | succ j =>
        have hst : a.st = { (ws (j + 1)).st with strain := a.st.strain } := by
          obtain ⟨_, h1, h2, h3, h4, _⟩ := C14_rejected_step_moves_nothing g _ _ hrej
          dsimp only
          rw [← h1, ← h2, ← h3, ← h4]
        have hvis : ∀ mu, g.models.lava.bulkViscosity (ws (j + 1)).st = .ok mu → 0 < mu := by
          intro mu hm
          obtain ⟨f1, f2, _, _⟩ := (C13_accepted_reason g _ _ (t.accepted j (by omega))).2 hrej.1
          apply hmu
          · rw [hst]
            exact (notCompatible_strain _ _ _).trans f2
          · rw [hst]
            exact f1
          · rw [hst, ← hm]
            exact hl _ _
        have := C24_next_step_moves g _ _ (t.accepted j (by omega)) hrej.1 (by rw [t.terrain j (by omega)]; exact hD) hvis
          (fun t0 ht => by
            obtain ⟨t1, y1, y2, _⟩ := C34_yield_nonneg g.models.lava.yld (ws (j + 1)).st hphik
            have ht : g.models.lava.yld.strength (ws (j + 1)).st = .ok t0 := ht
            rw [y1] at ht; injection ht with ht; rw [← ht]; exact y2) v x hv
        linarith
    · have hq0 := hheat _ _ hq
      have hEa : 0 < a.effusionRate := by
        cases k with
        | zero =>
          rw [rejected_effusion hrej v x hv hpv]
          unfold World.stepEffusion
          rw [t.start] at hv ⊢
          have := hE _ _ hv
          simp only [beq_iff_eq]
          rw [← this]
          exact hE0
        | succ j =>
          have hit := (C06_position_time g (j + 1) ws t.accepted).2.1
          rw [(C14_rejected_step_moves_nothing g _ _ hrej).2.2.2.2.2.2.2.2 (by omega), t.effusion j (by omega)]
          exact hE0
      have : 0 < q / (a.effusionRate * g.models.lava.density (ws k).st * g.models.lava.latentHeat) * g.dx := by positivity
      linarith

/-- **C122**, slower. If moreover the vent has no negative crystal fraction and the lava there can flow, and lava that is hotter and has fewer crystals is not more viscous, then
    wherever both tables show a mean velocity the flow in harsher surroundings is not the faster. -/
theorem C122_slower (hphi : 0 ≤ w.st.crystal) (hvent : g.models.lava.yieldNotCompatible w.terrain w.st = .ok false)
    (hmuR : ∀ s mu, R s.pos s.temp s.crystal → g.models.lava.bulkViscosity s = .ok mu → 0 < mu)
    (hthin : ThinnerWhenHotter g.models.lava R R') :
    ∀ x v v', BothShow a.log b.log "mean_velocity" x v v' → v' ≤ v := by
  obtain ⟨m', rfl⟩ := sameLava_eq hs
  obtain ⟨k, k', ws, vs, d, e, t, t', hc⟩ := harsher_tables g (inSurroundings g m') hs hdx n n' w a b hw h h' hl r hr0 hrate E hE hE0 hD hL hfr R R'
    hin hin' hrho hcrust hloss K hlip hsmall
  rintro x v v' ⟨h1, h2⟩
  obtain ⟨i, hi, rfl⟩ := t.shown _ (step_not_part g _ (by simp)) _ _ h1
  obtain ⟨j, hj, hp⟩ := t'.shown _ (step_not_part _ _ (by simp)) _ _ h2
  have hij : i = j := by
    rw [t.pos i hi.le, t'.pos j hj.le] at hp
    have hp : w.st.pos + i * g.dx = w.st.pos + j * g.dx := hp
    have : (i : ℝ) = j := mul_right_cancel₀ hdx.ne' (by linarith)
    exact_mod_cast this
  subst hij
  have r1 := (t.row i hi).mean_velocity
  have r2 := (t'.row i hj).mean_velocity
  rw [h1, Option.some.injEq] at r1
  rw [← hp, h2, Option.some.injEq] at r2
  obtain ⟨c1, c2⟩ := hc i hi.le hj.le
  have c3 : (ws i).st.crystal ≤ (vs i).st.crystal := by
    have := mul_nonneg hr0.le (sub_nonneg.mpr c1)
    linarith
  have hRa := hin _ _ _ (t.row i hi).core_temperature (t.row i hi).crystal_fraction
  have hRb := hin' _ _ _ (t'.row i hj).core_temperature (t'.row i hj).crystal_fraction
  have hyield : g.models.lava.yieldNotCompatible w.terrain (vs i).st = .ok false := by
    cases i with
    | zero => rw [t'.start]; exact hvent
    | succ j =>
      have := ((C13_accepted_reason _ _ _ (t'.accepted j (by omega))).2 (t'.accepted (j + 1) hj).1).2.2.1
      rwa [t'.terrain _ hj.le] at this
  have hphia : 0 ≤ (ws i).st.crystal := by
    have := crystals_ge t.accepted i hi.le
    rw [t.start] at this
    linarith
  obtain ⟨xb, hvb⟩ := (t'.made i hj).velocity
  obtain ⟨xa, hva⟩ := (t.made i hi).velocity
  rw [r1, r2]
  refine hotter_velocity hp c1 c3 hphia hD (fun mu mu' h1 h2 => ⟨hmuR _ _ hRa h1, hthin _ _ _ _ hRa hRb hp c1 c3 h1 h2⟩) (fun t0 tb h1 h2 => ?_) hva hvb
  unfold Lava.yieldNotCompatible at hyield
  rw [h1, ok_bind, h2, ok_bind, pure_ok_iff, ← Bool.not_eq_true, leB_real, not_le] at hyield
  have ht0 : 0 ≤ t0 := by
    obtain ⟨t1, y1, y2, _⟩ := C34_yield_nonneg g.models.lava.yld (vs i).st (hphia.trans c3)
    have h0 : g.models.lava.yld.strength (vs i).st = .ok t0 := h1
    rw [y1] at h0; injection h0 with h0; rw [← h0]; exact y2
  exact ⟨by linarith, hyield.le⟩
end

end PyFlowGo
