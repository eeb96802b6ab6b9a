import Verif.Proofs.Compare
/-
  C118: a flow that loses more heat is nowhere hotter, nowhere less crystallised, and not longer.
-/
set_option linter.unusedSectionVars false
namespace PyFlowGo
open Spec

section
variable (g : Integrator ℝ) (fs extra : List (Flux ℝ)) (hperm : fs.Perm (g.models.fluxes ++ extra)) (hdx : 0 < g.dx)
  (n n' : Nat) (w a b : World ℝ) (hw : w.log = [])
  (h : runLoop g n w = some (.ok (), a)) (h' : runLoop (withFluxes g fs) n' w = some (.ok (), b))
  (hl : StrainIndependent g.models.lava) (r : ℝ) (hr0 : 0 < r) (hrate : ∀ s, g.models.cryst.rate s = .ok r)
  (E : ℝ) (hE : VentRate g w E) (hE0 : 0 < E) (hD : 0 < w.terrain.depth) (hL : 0 < g.models.lava.latentHeat)
  (hfr : ∀ flux, w.fluxRate = some flux → 0 < flux)
  (R R' : ℝ → ℝ → ℝ → Prop)
  (hin : ∀ x T phi, loggedNum a.log x "core_temperature" = some T → loggedNum a.log x "crystal_fraction" = some phi → R x T phi)
  (hin' : ∀ x T phi, loggedNum b.log x "core_temperature" = some T → loggedNum b.log x "crystal_fraction" = some phi → R' x T phi)
  (hrho : ∀ s, R' s.pos s.temp s.crystal → 0 < g.models.lava.density s)
  (hex : ∀ f ∈ extra, NeverWarms g.models w.terrain R' f)
  (K : ℝ) (hlip : ColderSlower g w.terrain w.fluxRate E R R' r K) (hsmall : g.dx * K ≤ 1)

include hperm hdx hw h h' hl hr0 hrate hE hE0 hD hL hfr hin hin' hrho hex hlip hsmall

/-- The tables of the two runs, with the comparison of their states. -/
theorem compare_tables : ∃ k k' ws vs d e, RunTable g w a E k ws d ∧ RunTable (withFluxes g fs) w b E k' vs e ∧
    ∀ i, i ≤ k → i ≤ k' → (vs i).st.temp ≤ (ws i).st.temp ∧
      (vs i).st.crystal - (ws i).st.crystal = r * ((ws i).st.temp - (vs i).st.temp) := by
  obtain ⟨k, ws, d, t⟩ := run_table g hdx n w a hw h E hE
  obtain ⟨k', vs, e, t'⟩ := run_table (withFluxes g fs) hdx n' w b hw h' E hE
  exact ⟨k, k', ws, vs, d, e, t, t', compare_states hl hperm hdx hr0 hrate hE0 hD hL hfr hrho hex hlip hsmall t t'
    (fun i hi => hin _ _ _ (t.row i hi).core_temperature (t.row i hi).crystal_fraction)
    (fun i hi => hin' _ _ _ (t'.row i hi).core_temperature (t'.row i hi).crystal_fraction)⟩

/-- **C118**, colder. Take a finished run (fresh log, positive step) of a lava whose rheology does not use the strain rate and that
    crystallises at a constant rate `r`, and the run of the same flow from the same vent with further heat fluxes, none of which warms the
    lava. If the step is small for the flow equations (`dx K <= 1`, where a colder lava cools more slowly by at most `K` per kelvin, for
    lava in regions `R` and `R'` that contain the two tables; a Lipschitz constant of the flow equations is such a `K`), then wherever both tables show a core temperature the second is not hotter, and wherever both show a
    crystal fraction the second does not show a smaller one. -/
theorem C118_colder :
    (∀ x T T', BothShow a.log b.log "core_temperature" x T T' → T' ≤ T) ∧
    (∀ x phi phi', BothShow a.log b.log "crystal_fraction" x phi phi' → phi ≤ phi') := by
  obtain ⟨k, k', ws, vs, d, e, t, t', hc⟩ := compare_tables g fs extra hperm hdx n n' w a b hw h h' hl r hr0 hrate E hE hE0 hD hL hfr R R'
    hin hin' hrho hex K hlip hsmall
  have same : ∀ i j, i < k → j < k' → (ws i).st.pos = (vs j).st.pos → i = j := by
    intro i j hi hj hp
    rw [t.pos i hi.le, t'.pos j hj.le] at hp
    have hp : w.st.pos + i * g.dx = w.st.pos + j * g.dx := hp
    have : (i : ℝ) = j := mul_right_cancel₀ hdx.ne' (by linarith)
    exact_mod_cast this
  refine ⟨fun x T T' hb => ?_, fun x phi phi' hb => ?_⟩
  · obtain ⟨h1, h2⟩ := hb
    obtain ⟨i, hi, rfl⟩ := t.shown _ (step_not_part g _ (by simp)) _ _ h1
    obtain ⟨j, hj, hp⟩ := t'.shown _ (step_not_part _ _ (by simp)) _ _ h2
    obtain rfl := same i j hi hj hp
    have r1 := (t.row i hi).core_temperature
    have r2 := (t'.row i hj).core_temperature
    rw [h1, Option.some.injEq] at r1
    rw [← hp, h2, Option.some.injEq] at r2
    rw [r1, r2]
    exact (hc i hi.le hj.le).1
  · obtain ⟨h1, h2⟩ := hb
    obtain ⟨i, hi, rfl⟩ := t.shown _ (step_not_part g _ (by simp)) _ _ h1
    obtain ⟨j, hj, hp⟩ := t'.shown _ (step_not_part _ _ (by simp)) _ _ h2
    obtain rfl := same i j hi hj hp
    have r1 := (t.row i hi).crystal_fraction
    have r2 := (t'.row i hj).crystal_fraction
    rw [h1, Option.some.injEq] at r1
    rw [← hp, h2, Option.some.injEq] at r2
    obtain ⟨c1, c2⟩ := hc i hi.le hj.le
    have := mul_nonneg hr0.le (sub_nonneg.mpr c1)
    rw [r1, r2]
    linarith

/-- **C118**, shorter. If moreover the vent has no negative crystal fraction, the relative-viscosity model tests for packing, the bulk
    viscosity at the end of the first flow is positive, and the first table shows no heat budget that is zero or negative (at such a row the
    program stops the flow), then the flow that loses more heat does not run farther. -/
theorem C118_shorter (hphi : 0 ≤ w.st.crystal) (hpack : PackingChecked g.models.lava.rel)
    (hmu : ∀ mu, g.models.lava.bulkViscosity a.st = .ok mu → 0 < mu)
    (hheat : ∀ x q, loggedNum a.log x "heat_budget" = some q → 0 < q) : b.st.pos ≤ a.st.pos := by
  obtain ⟨k, k', ws, vs, d, e, t, t', hc⟩ := compare_tables g fs extra hperm hdx n n' w a b hw h h' hl r hr0 hrate E hE hE0 hD hL hfr R R'
    hin hin' hrho hex K hlip hsmall
  have edx : (withFluxes g fs).dx = g.dx := rfl
  rw [t.finalPos, t'.finalPos, edx]
  suffices hk : k' ≤ k by
    have : (k' : ℝ) ≤ k := by exact_mod_cast hk
    have := mul_le_mul_of_nonneg_right this hdx.le
    linarith
  by_contra hlt
  have hlt : k < k' := by omega
  obtain ⟨c1, c2⟩ := hc k le_rfl hlt.le
  have c3 : (ws k).st.crystal ≤ (vs k).st.crystal := by
    have := mul_nonneg hr0.le (sub_nonneg.mpr c1)
    linarith
  have hpos : (vs k).st.pos = (ws k).st.pos := by rw [t.pos k le_rfl, t'.pos k hlt.le]; rfl
  have hphik : 0 ≤ (ws k).st.crystal := by
    have := crystals_ge t.accepted k le_rfl
    rw [t.start] at this
    linarith
  have hacc' := t'.accepted k hlt
  have hrow' := t'.row k hlt
  have hrho' := hrho _ (hin' _ _ _ hrow'.core_temperature hrow'.crystal_fraction)
  rw [density_pos_only _ _ _ hpos] at hrho'
  rcases t.ended with hend | hrej
  · -- the last accepted step of the first flow ended it
    have hfin : (ws k).finished = true := by rw [← hend]; exact t.finished
    cases k with
    | zero =>
      have h1 : (vs 0).finished = false := hacc'.1
      rw [t'.start, ← t.start, hfin] at h1
      cases h1
    | succ j =>
      have hreason := (C13_accepted_reason g _ _ (t.accepted j (by omega))).1 hfin
      obtain ⟨n1, n2, n3, n4⟩ := (C13_accepted_reason _ _ _ (t'.accepted j (by omega))).2 hacc'.1
      rw [t.terrain _ le_rfl] at hreason
      rw [t'.terrain _ (by omega)] at n3 n4
      rcases hreason with h1 | h1 | h1 | h1
      · have n1 : g.models.cryst.solidTemperature < (vs (j + 1)).st.temp := n1
        linarith
      · exact checked_fewer _ hpack _ _ hpos.symm c3 n2 h1
      · exact yield_fewer _ _ _ _ hphik hpos c3 c1 n3 h1
      · rw [← hpos] at h1
        linarith
  · -- the first flow gave up a step
    rcases rejected_cases hrej with ⟨v, x, hv, hle⟩ | ⟨v, x, q, hv, hpv, hq, hne, hgrow⟩
    · cases k with
      | zero =>
        obtain ⟨A⟩ := acceptedFacts hacc'
        have hv' : ∃ v' x', g.models.lava.meanVelocity (vs 0).terrain (vs 0).st = .ok (v', x') ∧ 0 < v' := ⟨_, _, A.hv, A.vpos⟩
        rw [t'.start, ← t.start, hv] at hv'
        obtain ⟨v', x', hv', hA⟩ := hv'
        injection hv' with hv'
        have := congrArg Prod.fst hv'
        dsimp only at this
        linarith
      | succ j =>
        have hst : a.st = { (ws (j + 1)).st with strain := a.st.strain } := by
          obtain ⟨_, h1, h2, h3, h4, _⟩ := C14_rejected_step_moves_nothing g _ _ hrej
          dsimp only
          rw [← h1, ← h2, ← h3, ← h4]
        have hvis : ∀ mu, g.models.lava.bulkViscosity (ws (j + 1)).st = .ok mu → 0 < mu := by
          intro mu hm
          apply hmu
          rw [hst, ← hm]
          exact hl _ _
        have := C24_next_step_moves g _ _ (t.accepted j (by omega)) hrej.1 (by rw [t.terrain j (by omega)]; exact hD) hvis
          (fun t0 ht => by
            obtain ⟨t1, y1, y2, _⟩ := C34_yield_nonneg g.models.lava.yld (ws (j + 1)).st hphik
            have ht : g.models.lava.yld.strength (ws (j + 1)).st = .ok t0 := ht
            rw [y1] at ht; injection ht with ht; rw [← ht]; exact y2) v x hv
        linarith
    · have hq0 := hheat _ _ hq
      have hEa : 0 < a.effusionRate := by
        cases k with
        | zero =>
          rw [rejected_effusion hrej v x hv hpv]
          unfold World.stepEffusion
          rw [t.start] at hv ⊢
          have := hE _ _ hv
          simp only [beq_iff_eq]
          rw [← this]
          exact hE0
        | succ j =>
          have hit := (C06_position_time g (j + 1) ws t.accepted).2.1
          rw [(C14_rejected_step_moves_nothing g _ _ hrej).2.2.2.2.2.2.2.2 (by omega), t.effusion j (by omega)]
          exact hE0
      have : 0 < q / (a.effusionRate * g.models.lava.density (ws k).st * g.models.lava.latentHeat) * g.dx := by positivity
      linarith
end

/-- **C118**, which fluxes never warm the lava: rain with a positive (or zero) product of its parameters, the empirical surface flux of
    Snyder, viscous heating wherever the bulk viscosity is not negative (the program counts it as a loss), conduction into ground that is
    not hotter than the lava, and the radiation laws whose emissivity and Stefan-Boltzmann constant are not negative. -/
theorem C118_never_warms (m : Models ℝ) (T : Terrain ℝ) (R : ℝ → ℝ → ℝ → Prop) :
    (∀ rate rho lv, 0 ≤ rate * rho * lv → NeverWarms m T R (.rain rate rho lv)) ∧
    NeverWarms m T R .snyder ∧
    ((∀ s mu, R s.pos s.temp s.crystal → m.lava.bulkViscosity s = .ok mu → 0 ≤ mu) → NeverWarms m T R .viscous) ∧
    (∀ base pct, 0 ≤ pct * T.depth → (∀ x t phi, R x t phi → base ≤ t) → NeverWarms m T R (.conduction base pct)) ∧
    (∀ sigma e, 0 ≤ sigma * e → NeverWarms m T R (.radBasic sigma e)) := by
  refine ⟨?_, ?_, ?_, ?_, ?_⟩
  · intro rate rho lv h width s q hw _ hq
    have hq : q = rate * rho * lv * width := hq
    rw [hq]; positivity
  · rintro width s q hw _ ⟨v, x, Tc, _, _, h0, rfl⟩
    have := Real.rpow_nonneg h0 4.85
    positivity
  · rintro hmu width s q hw hR ⟨mu, v, x, h1, _, _, rfl⟩
    have := hmu s mu hR h1
    positivity
  · rintro base pct h hb width s q hw hR ⟨_, rfl⟩
    have h1 := hb _ _ _ hR
    have h2 : 0 ≤ (s.temp - base) / (pct / 100 * T.depth) := div_nonneg (by linarith) (by linarith)
    positivity
  · rintro sigma e h width s q hw hR ⟨v, x, Tc, sg, em, _, _, _, _, h0, h1, rfl⟩
    simp only [emissivityOf, Option.some.injEq, Prod.mk.injEq] at h1
    obtain ⟨rfl, rfl⟩ := h1
    exact mul_nonneg (mul_nonneg h h0) hw.le

end PyFlowGo
