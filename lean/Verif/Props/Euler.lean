import Verif.Spec.EulerSpec
import Verif.Proofs.StrainKept
import Verif.Props.RunRows
import Verif.Props.RunOutExamples
/-
  C70: the result file is the table of an explicit Euler scheme; what every column of it means.
-/
set_option linter.unusedSectionVars false
namespace PyFlowGo
open Spec

theorem cellAt_position {log : Log (Cell ℝ)} {p : ℝ} {n : String} {c : Cell ℝ} (h : cellAt log (.num p) n = some c) :
    cellAt log (.num p) "position" = some (.num p) := by
  unfold cellAt at *
  cases hf : log.find? (fun r => r.atPosition (.num p)) with
  | none => rw [hf] at h; cases h
  | some r =>
    have h1 := List.find?_some hf
    unfold Row.atPosition at h1
    rw [Option.bind_some]
    split at h1
    · rename_i q hq
      rw [hq, beq_iff_eq.mp h1]
    · cases h1

/-- What one accepted step leaves in the log and in the state, in full. -/
theorem accepted_row {g : Integrator ℝ} {w w' : World ℝ} (h : AcceptedStep g w w') :
    ∃ d : RowData, RowMade g w.terrain w.fluxRate w'.effusionRate w.st d ∧
      RowShown g w.terrain w'.effusionRate w'.log w.st d ∧
      EulerStep g w.terrain w'.effusionRate w.st w'.st d ∧
      (StrainIndependent g.models.lava → d.strain = 3 * d.v / w.terrain.depth ∧ d.vCover = d.v ∧
        ∃ qs : List ℝ, List.Forall₂ (FluxIs g.models d.width w.terrain.depth w.terrain w.st) g.models.fluxes qs ∧
          d.heat = qs.sum ∧ (ColumnsKept g.models.fluxes →
            List.Forall₂ (fun f q => loggedNum w'.log w.st.pos (fluxColumn f) = some q) g.models.fluxes qs)) := by
  obtain ⟨A⟩ := acceptedFacts h
  have e3 := A.eff_eq
  have hs : A.w1.st = { w.st with strain := A.y } := by rw [A.facts.touched]; rfl
  have hsc : A.w1.st.crystal = w.st.crystal := by rw [hs]
  have hst : A.w1.st.temp = w.st.temp := by rw [hs]
  have hsy : A.w1.st.strain = A.y := by rw [hs]
  have hdens : g.models.lava.density A.w1.st = g.models.lava.density w.st := by rw [hs]; exact density_strain _ _ _
  have hves : g.models.lava.vesicleFraction A.w1.st = g.models.lava.vesicleFraction w.st := by
    rw [hs]; unfold Lava.vesicleFraction; exact ves_strain _ _ _
  obtain ⟨hne0, hdt⟩ := div_ok_iff.mp A.facts.dtemp
  obtain ⟨hr, hne, hdphi, _⟩ := A.facts.real
  obtain ⟨t0, tb, mu, _, _, _, _, _, _, _, hx⟩ := (meanVelocity_ok_iff _ _ _ _ _).mp A.hv
  have hlog := A.log_eq
  have hst' : w'.st = A.s' := congrArg World.st A.hw
  refine ⟨{ v := A.v, strain := A.y, vCover := A.v2, heat := A.d.heat, width := A.d.width, slope := A.d.slope,
            viscosity := A.visc, crustT := A.tc, yieldStrength := A.tho0, basalStress := A.thob, rate := A.d.rate },
    ⟨⟨A.x, A.hv⟩, A.vpos, A.depth_ne, ⟨A.y2, by rw [← hs]; exact A.hv2⟩, ?_, ?_, A.facts.slope,
      by rw [← hs]; exact A.hvisc, by rw [← crust_strain _ _ A.y, ← hs]; exact A.htc, A.ht0, A.htb, A.facts.rate,
      by rw [e3]; exact hne0⟩, ?_, ?_, ?_⟩
  · intro hm
    have hwid := A.facts.width
    rw [hm] at hwid
    simp only [channelWidth, Bool.false_eq_true, if_false] at hwid
    rw [e3]; exact (div_ok_iff.mp hwid).2
  · intro hm
    have hwid := A.facts.width
    rw [hm] at hwid
    simp only [channelWidth, if_true] at hwid
    cases hf : w.fluxRate with
    | none => rw [hf] at hwid; cases hwid
    | some flux =>
      rw [hf] at hwid
      obtain ⟨a, ha, hb⟩ := bind_ok_iff.mp hwid
      exact ⟨flux, rfl, by rw [(div_ok_iff.mp hb).2, (div_ok_iff.mp ha).2]⟩
  · have c1 : cellAt w'.log (.num w.st.pos) "crystal_fraction" = some (.num w.st.crystal) :=
      A.logged (by decide) (by rw [← hsc]; rfl)
    have hcg : crystalGradient g w'.effusionRate w.st { v := A.v, strain := A.y, vCover := A.v2, heat := A.d.heat, width := A.d.width, slope := A.d.slope, viscosity := A.visc, crustT := A.tc, yieldStrength := A.tho0, basalStress := A.thob, rate := A.d.rate } = A.d.dphiDx := by
      unfold crystalGradient; rw [e3, hdphi]
    have htg : tempGradient g w'.effusionRate w.st { v := A.v, strain := A.y, vCover := A.v2, heat := A.d.heat, width := A.d.width, slope := A.d.slope, viscosity := A.visc, crustT := A.tc, yieldStrength := A.tho0, basalStress := A.thob, rate := A.d.rate } = A.d.dtempDx := by
      unfold tempGradient; rw [e3, hdt]
    constructor
    · exact loggedNum_of_cell (cellAt_position c1)
    · exact loggedNum_of_cell (A.logged (by decide) (by rfl))
    · exact loggedNum_of_cell c1
    · exact loggedNum_of_cell (A.logged (by decide) (by rw [← hst]; rfl))
    · exact loggedNum_of_cell (A.logged (by decide) (by dsimp only; rw [← hsy]; rfl))
    · exact loggedNum_of_cell (A.logged (by decide) (by rw [← hves]; rfl))
    · exact loggedNum_of_cell (A.logged (by decide) (by rfl))
    · exact loggedNum_of_cell (A.logged (by decide) (by rw [← hdens]; rfl))
    · exact loggedNum_of_cell (A.logged (by decide) (by dsimp only; rw [← A.facts.v_eq]; rfl))
    · exact loggedNum_of_cell (A.logged (by decide) (by rfl))
    · rw [← cover_value, ← A.hf]
      exact loggedNum_of_cell (A.logged (by decide) (by rfl))
    · rw [hcg]; exact loggedNum_of_cell (A.logged (by decide) (by rfl))
    · rw [htg]; exact loggedNum_of_cell (A.logged (by decide) (by rfl))
    · exact loggedNum_of_cell (A.logged (by decide) (by rfl))
    · rw [htg]
      have : -A.d.dtempDx * A.v * 60 = A.d.dtempDt := by rw [A.facts.dtempDt]; norm_num
      rw [this]
      exact loggedNum_of_cell (A.logged (by decide) (by rfl))
    · exact loggedNum_of_cell (A.logged (by decide) (by rfl))
    · rw [e3]; exact A.logged (by decide) (by rfl)
    · rw [← A.facts.depth_eq]; exact loggedNum_of_cell (A.logged (by decide) (by rfl))
    · exact loggedNum_of_cell (A.logged (by decide) (by rfl))
    · exact loggedNum_of_cell (A.logged (by decide) (by rfl))
    · exact loggedNum_of_cell A.logged_heat
  · constructor
    · rw [A.crystal_eq, A.facts.newPhi, hdphi]; unfold crystalGradient; rw [e3]
    · rw [A.temp_eq, A.facts.newTemp, hdt]; unfold tempGradient; rw [e3]
    · rw [hst', A.hs]
    · rw [hst', A.hs]
    · rw [hst', A.hs]
  · intro hl
    have hset : Settled w.terrain w.st A.x A.w1 :=
      Preserves.heatBudget (settled_blind _ _ _) g.models (settled_velocity hl A.hv) _ _ _ _ _ (by exact ⟨rfl, rfl⟩) A.facts.heat
    have hy : A.y = A.x := by rw [← hsy, hset.2]
    refine ⟨by dsimp only; rw [hy, hx], ?_, ?_⟩
    · have h2 := A.hv2
      rw [hs, meanVelocity_strain _ hl, A.hv, Except.ok.injEq, Prod.mk.injEq] at h2
      exact h2.1.symm
    · have hW : ∀ fl q, FluxIs g.models A.d.width w.terrain.depth w.terrain { w.st with strain := A.x } fl q ↔
          FluxIs g.models A.d.width w.terrain.depth w.terrain w.st fl q := fun fl q => fluxIs_strain hl _ _ _ _ _ _ _
      by_cases hk : ColumnsKept g.models.fluxes
      · obtain ⟨qs, h1, h2, _, h4⟩ := C45_log_agrees hl hk _ _ _ _ _ A.facts.heat
        refine ⟨qs, h1.imp fun fl q hq => (hW fl q).mp hq, h2, fun _ => h4.imp fun fl q hq => ?_⟩
        have : cellAt w'.log (.num w.st.pos) (fluxColumn fl) = cellAt A.w1.log (.num w.st.pos) (fluxColumn fl) := by
          have hl1 : A.w1.log = w.log.addAll (.num w.st.pos) A.es := by rw [A.facts.touched]; rfl
          rw [hlog, hl1]
          refine cellAt_addAll_last_of_not_mem _ _ A.facts.names_ne (stepEntries_ne _ _ _ _ _ _ _ _ _) _
            (by cases fl <;> simp [fluxColumn]) _ fun e he hc => ?_
          have : e.1 ∈ stepColumns := by
            rw [← stepEntries_names g A.d A.w1.st (w.stepEffusion A.v) A.visc A.tc A.f A.tho0 A.thob]
            exact List.mem_map.mpr ⟨e, he, rfl⟩
          rw [hc] at this
          revert this
          cases fl <;> simp [fluxColumn, stepColumns]
        unfold loggedNum at hq ⊢
        rw [this]; exact hq
      · obtain ⟨qs, h1, h2⟩ := (C45_budget_is_sum hl _ _ _ _).mp ⟨_, A.facts.heat⟩
        exact ⟨qs, h1.imp fun fl q hq => (hW fl q).mp hq, h2, fun h => absurd h hk⟩

/-- C70 with the worlds between the steps exposed. -/
theorem table_worlds (g : Integrator ℝ) (hdx : 0 < g.dx) (n : Nat) (w w' : World ℝ) (hw : w.log = [])
    (h : runLoop g n w = some (.ok (), w')) :
    ∃ (k : Nat) (ws : Nat → World ℝ) (s : Nat → FlowState ℝ) (d : Nat → RowData) (E : ℝ), ws 0 = w ∧ AcceptedRun g k ws ∧
      s = (fun i => (ws i).st) ∧ (∀ i, i ≤ k → (ws i).terrain = w.terrain) ∧ (∀ i, i ≤ k → (ws i).fluxRate = w.fluxRate) ∧
      (∀ i, i < k → (ws (i + 1)).effusionRate = E) ∧
      (∀ i, i < k → ∀ name, cellAt w'.log (.num (ws i).st.pos) name = cellAt (ws (i + 1)).log (.num (ws i).st.pos) name) ∧
      (w'.log.length = k ∨ w'.log.length = k + 1) ∧
      s 0 = w.st ∧ w'.st = { s k with strain := w'.st.strain } ∧
      (0 < k → E = if w.iteration = 0 then (d 0).v * w.terrain.width * w.terrain.depth else w.effusionRate) ∧
      ∀ i, i < k → RowMade g w.terrain w.fluxRate E (s i) (d i) ∧ RowShown g w.terrain E w'.log (s i) (d i) ∧
        EulerStep g w.terrain E (s i) (s (i + 1)) (d i) ∧
        (StrainIndependent g.models.lava → (d i).strain = 3 * (d i).v / w.terrain.depth ∧ (d i).vCover = (d i).v ∧
          ∃ qs : List ℝ, List.Forall₂ (FluxIs g.models (d i).width w.terrain.depth w.terrain (s i)) g.models.fluxes qs ∧
            (d i).heat = qs.sum ∧ (ColumnsKept g.models.fluxes →
              List.Forall₂ (fun f q => loggedNum w'.log (s i).pos (fluxColumn f) = some q) g.models.fluxes qs)) := by
  obtain ⟨k, ws, h0, hacc, hend, hlen, hfinal⟩ := C63_rows_are_final g hdx n w w' hw h
  classical
  choose r hr using fun i (hi : i < k) => accepted_row (hacc i hi)
  have hter : ∀ i, i ≤ k → (ws i).terrain = w.terrain := by
    intro i
    induction i with
    | zero => intro _; rw [h0]
    | succ i ih =>
      intro hi
      obtain ⟨A⟩ := acceptedFacts (hacc i (by omega))
      rw [A.terrain_eq, ih (by omega)]
  have hflux : ∀ i, i ≤ k → (ws i).fluxRate = w.fluxRate := by
    intro i
    induction i with
    | zero => intro _; rw [h0]
    | succ i ih =>
      intro hi
      obtain ⟨A⟩ := acceptedFacts (hacc i (by omega))
      rw [A.flux_eq, ih (by omega)]
  have heff : ∀ i, i < k → (ws (i + 1)).effusionRate = (ws 1).effusionRate := by
    intro i
    induction i with
    | zero => intro _; rfl
    | succ i ih =>
      intro hi
      obtain ⟨B⟩ := acceptedFacts (hacc (i + 1) hi)
      have hit := (C06_position_time g (i + 1) ws (fun j hj => hacc j (by omega))).2.1
      have : (ws (i + 1)).iteration ≠ 0 := by omega
      rw [B.eff_eq, ← ih (by omega)]; simp [World.stepEffusion, this]
  let dummy : RowData := ⟨0, 0, 0, 0, 0, 0, 0, 0, 0, 0, 0⟩
  refine ⟨k, ws, fun i => (ws i).st, fun i => if hi : i < k then r i hi else dummy, (ws 1).effusionRate, h0, hacc, rfl,
    hter, hflux, heff, hfinal, hlen,
    by dsimp only; rw [h0], ?_, ?_, ?_⟩
  · rcases hend with rfl | hrej
    · rfl
    · obtain ⟨_, h1, h2, h3, h4, _⟩ := C14_rejected_step_moves_nothing g _ _ hrej
      dsimp only
      rw [← h1, ← h2, ← h3, ← h4]
  · intro hk
    simp only [dif_pos hk]
    obtain ⟨A⟩ := acceptedFacts (hacc 0 hk)
    obtain ⟨x, hv⟩ := (hr 0 hk).1.velocity
    rw [A.hv, Except.ok.injEq, Prod.mk.injEq] at hv
    have e := A.eff_eq
    rw [e, ← hv.1]
    generalize A.v = v
    unfold World.stepEffusion
    rw [h0]
    simp only [beq_iff_eq]
  · intro i hi
    simp only [dif_pos hi]
    obtain ⟨h1, h2, h3, h4⟩ := hr i hi
    rw [hter i hi.le, hflux i hi.le, heff i hi] at h1
    rw [hter i hi.le, heff i hi] at h2 h3
    rw [hter i hi.le] at h4
    have key : ∀ name, loggedNum w'.log (ws i).st.pos name = loggedNum (ws (i + 1)).log (ws i).st.pos name := by
      intro name; unfold loggedNum; rw [hfinal i hi]
    refine ⟨h1, ?_, h3, fun hl => ?_⟩
    · constructor <;> first | rw [key] | rw [hfinal i hi]
      exacts [h2.1, h2.2, h2.3, h2.4, h2.5, h2.6, h2.7, h2.8, h2.9, h2.10, h2.11, h2.12, h2.13, h2.14, h2.15, h2.16,
        h2.17, h2.18, h2.19, h2.20, h2.21]
    · obtain ⟨a, b, qs, c1, c2, c3⟩ := h4 hl
      exact ⟨a, b, qs, c1, c2, fun hk => (c3 hk).imp fun f q hq => by rw [key]; exact hq⟩

/-- **C70**. The result of a run (fresh log, positive step) is the table of an explicit Euler scheme. There are states
    `s 0, s 1, ..., s k`, the first the initial state, one effusion rate `E`, and for each of the `k` complete rows the
    numbers of the row computed from `s i` alone; the row shows them (and `s i`) under the documented column names, and
    `s (i+1)` is the Euler step from `s i`. The flow ends in state `s k` (up to the strain rate). On a first run `E` is
    the velocity of the first row times the configured width and depth. -/
theorem C70_euler_table (g : Integrator ℝ) (hdx : 0 < g.dx) (n : Nat) (w w' : World ℝ) (hw : w.log = [])
    (h : runLoop g n w = some (.ok (), w')) :
    ∃ (k : Nat) (s : Nat → FlowState ℝ) (d : Nat → RowData) (E : ℝ), (w'.log.length = k ∨ w'.log.length = k + 1) ∧
      s 0 = w.st ∧ w'.st = { s k with strain := w'.st.strain } ∧
      (0 < k → E = if w.iteration = 0 then (d 0).v * w.terrain.width * w.terrain.depth else w.effusionRate) ∧
      ∀ i, i < k → RowMade g w.terrain w.fluxRate E (s i) (d i) ∧ RowShown g w.terrain E w'.log (s i) (d i) ∧
        EulerStep g w.terrain E (s i) (s (i + 1)) (d i) ∧
        (StrainIndependent g.models.lava → (d i).strain = 3 * (d i).v / w.terrain.depth ∧ (d i).vCover = (d i).v ∧
          ∃ qs : List ℝ, List.Forall₂ (FluxIs g.models (d i).width w.terrain.depth w.terrain (s i)) g.models.fluxes qs ∧
            (d i).heat = qs.sum ∧ (ColumnsKept g.models.fluxes →
              List.Forall₂ (fun f q => loggedNum w'.log (s i).pos (fluxColumn f) = some q) g.models.fluxes qs)) := by
  obtain ⟨k, ws, s, d, E, _, _, _, _, _, _, _, h⟩ := table_worlds g hdx n w w' hw h
  exact ⟨k, s, d, E, h⟩

/-- **C70**: the hypotheses are met by runs with any number n >= 2 of rows. -/
example (n : Nat) (hn : 2 ≤ n) : ∃ (g : Integrator ℝ) (w w' : World ℝ), 0 < g.dx ∧ w.log = [] ∧
    StrainIndependent g.models.lava ∧ ColumnsKept g.models.fluxes ∧ g.models.fluxes ≠ [] ∧
    runLoop g n w = some (.ok (), w') ∧ n ≤ w'.log.length := by
  have hn' : (0:ℝ) < n := by positivity
  obtain ⟨w', t, h1, h2, _⟩ := long_result (1 / (300 * n)) 0 n (by positivity) n (by omega)
    (by field_simp; norm_num) (by linarith) (by linarith)
  exact ⟨_, _, w', by show (0:ℝ) < 1; norm_num, rfl, fun _ _ => rfl, by simp [flowG, flowModels, ColumnsKept],
    by simp [flowG, flowModels], h1, h2.ge⟩

end PyFlowGo
