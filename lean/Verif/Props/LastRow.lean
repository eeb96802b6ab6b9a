import Verif.Proofs.RunOutOrder
import Verif.Props.Plausible
import Verif.Props.HarsherConfig
/-
  C124: which rows of a result file are cut short.
-/
set_option linter.unusedSectionVars false
namespace PyFlowGo
open Spec

variable {g : Integrator ℝ} {x0 : ℝ}

/-- The heat budget that a step which found no crystals growing leaves in the log. -/
theorem noGrowth_heat {w w1 : World ℝ} {v x y : ℝ} {d : StepData ℝ} {es : List (String × Cell ℝ)} (facts : StepFacts g w v x d w1 es y) :
    loggedNum w1.log w.st.pos "heat_budget" = some d.heat := by
  obtain ⟨es0, he, _⟩ := facts.names
  have hne := facts.names_ne
  refine loggedNum_of_cell ?_
  rw [facts.touched]
  show cellAt (w.log.addAll (.num w.st.pos) es) _ _ = _
  rw [he]
  refine cellAt_addAll_append _ _ (fun e h => hne e (by rw [he]; simp [h])) (fun e h => ?_) _ (by decide) _ _ ?_
  · simp at h; rw [h]; show "heat_budget" ≠ "position"; decide
  · simp

/-- A step that moves and loses heat is not rejected. -/
theorem losing_heat_grows {w w' : World ℝ} (hg : Sensible g w.terrain x0) (hx : x0 ≤ w.st.pos) (hd : 0 < w.terrain.depth)
    (hot : g.models.cryst.solidTemperature < w.st.temp) (hE : w.iteration ≠ 0 → 0 < w.effusionRate) (h : RejectedStep g w w') :
    (w'.log = w.log ∧ ∃ v x, g.models.lava.meanVelocity w.terrain w.st = .ok (v, x) ∧ v ≤ 0) ∨ ∃ y, loggedNum w'.log w.st.pos "heat_budget" = some y ∧ y ≤ 0 := by
  obtain ⟨_, he, hne⟩ := h
  cases singleStep_ok he with
  | still v x hv hle hw =>
    left
    refine ⟨by rw [hw], v, x, hv, ?_⟩
    rw [leB_real] at hle; norm_num at hle; exact hle
  | noGrowth v x hv hle d w1 es y facts hphi hw =>
    right
    have hv0 : 0 < v := by
      rw [← Bool.not_eq_true, leB_real] at hle; norm_num at hle; exact hle
    refine ⟨d.heat, ?_, ?_⟩
    · have := noGrowth_heat facts
      rw [hw]; exact this
    by_contra hheat
    have hheat := not_le.mp hheat
    have hEff : 0 < w.stepEffusion v := by
      unfold World.stepEffusion
      by_cases hi : w.iteration = 0
      · rw [if_pos (by simpa using hi)]; exact mul_pos (mul_pos hv0 hg.width) hd
      · rw [if_neg (by simpa using hi)]; exact hE hi
    obtain ⟨r, hr0, hr⟩ := hg.rate w.st hx hot
    have hdr := facts.rate
    rw [hr, Except.ok.injEq] at hdr
    have hden : 0 < w.stepEffusion v * g.models.lava.density w.st * g.models.lava.latentHeat * d.rate :=
      mul_pos (mul_pos (mul_pos hEff (density_pos hg hx)) hg.latent) (by rw [← hdr]; exact hr0)
    have hdt := (div_ok_iff.mp facts.dtemp).2
    have hneg : d.dtempDx < 0 := by rw [hdt, neg_div]; exact neg_lt_zero.mpr (div_pos hheat hden)
    rw [leB_real, facts.newPhi, facts.dphi] at hphi
    have : 0 < d.dtempDx * -d.rate * g.dx := by
      refine mul_pos ?_ hg.step
      rw [← hdr]; nlinarith
    linarith
  | accepted v' x' hv' hle d w1 es y' facts hphi visc tc f v2 y2 tho0 thob hvisc htc hv2 hf2 ht0 htb dt strain hdt hst s' hs' stop hstop hw =>
    rw [hw] at hne
    exact absurd rfl hne

/-- A row whose cell can be read is one of the rows of the log. -/
theorem cell_row {log : Log (Cell ℝ)} {p : ℝ} {n : String} {c : Cell ℝ} (h : cellAt log (.num p) n = some c) :
    ∃ r ∈ log, r.get? "position" = some (.num p) := by
  have h1 := cellAt_position h
  unfold cellAt at h1
  cases hf : log.find? (fun r => r.atPosition (.num p)) with
  | none => rw [hf] at h1; cases h1
  | some r => rw [hf] at h1; exact ⟨r, List.mem_of_find?_eq_some hf, h1⟩

/-- How a run ends: all rows are complete, or the last one is cut short and shows a heat budget that is not positive. -/
theorem last_row (w w' : World ℝ) (hg : Sensible g w.terrain x0) (hx : x0 ≤ w.st.pos) (hv : AtVent g w) (hlog : w.log = [])
    (hE : w.iteration ≠ 0 → 0 < w.effusionRate) (n : Nat) (h : runLoop g n w = some (.ok (), w')) :
    ∃ k : Nat, (∀ x, CompleteRow w'.log x ↔ ∃ i : Nat, i < k ∧ x = w.st.pos + i * g.dx) ∧
      (∀ x y, loggedNum w'.log x "heat_budget" = some y → ∃ i : Nat, i < w'.log.length ∧ x = w.st.pos + i * g.dx) ∧
      (w'.log.length = k ∧ (∀ r ∈ w'.log, "viscosity" ∈ r.keys) ∨
        w'.log.length = k + 1 ∧ (∃ r : Row (Cell ℝ), w'.log.getLast? = some r ∧ "viscosity" ∉ r.keys) ∧
          ∃ y, loggedNum w'.log (w.st.pos + k * g.dx) "heat_budget" = some y ∧ y ≤ 0) := by
  obtain ⟨E, hrate⟩ := vent_rate g w
  obtain ⟨k, ws, row, e0, acc, ended, h1, h2, h3⟩ := C63_rows g hg.step n w w' hlog h
  obtain ⟨k', ws', d, t⟩ := run_table g hg.step n w w' hlog h E hrate
  have hpos : ∀ i, i ≤ k → (ws i).st.pos = w.st.pos + i * g.dx := by
    have := acceptedRun_pos acc; rw [e0] at this; exact this
  have ek : k' = k := by
    have e1 := t.finalPos
    have e2 : w'.st.pos = w.st.pos + k * g.dx := by
      rcases ended with e | e
      · rw [e]; exact hpos k le_rfl
      · rw [(C14_rejected_step_moves_nothing g _ _ e).2.2.2.1]; exact hpos k le_rfl
    have : (k' : ℝ) * g.dx = k * g.dx := by linarith
    have := mul_right_cancel₀ hg.step.ne' this
    exact_mod_cast this
  subst ek
  have vfull : ∀ r ∈ (List.range k').map row, "viscosity" ∈ r.keys := by
    intro r hm
    obtain ⟨i, hi, rfl⟩ := List.mem_map.mp hm
    rw [(h1 i (List.mem_range.mp hi)).2]
    unfold runColumns
    rw [List.mem_cons, List.mem_append]
    right; right; decide
  have hplace : ∀ r ∈ (List.range k').map row, ∀ x, r.get? "position" = some (.num x) → ∃ i : Nat, i < k' ∧ x = w.st.pos + i * g.dx := by
    intro r hm x hrx
    obtain ⟨i, hi, rfl⟩ := List.mem_map.mp hm
    have := (h1 i (List.mem_range.mp hi)).1
    rw [hrx, Option.some.injEq, Cell.num.injEq] at this
    exact ⟨i, List.mem_range.mp hi, this⟩
  refine ⟨k', fun x => ⟨?_, ?_⟩, fun x y hy => ?_, ?_⟩
  · rintro ⟨y, hy⟩
    obtain ⟨i, hi, e⟩ := t.shown _ (step_not_part g _ (by simp)) _ _ hy
    exact ⟨i, hi, e.trans (t.pos i hi.le)⟩
  · rintro ⟨i, hi, rfl⟩
    have := (t.row i hi).crystal_fraction
    rw [t.pos i hi.le] at this
    exact ⟨_, this⟩
  · have hcell : cellAt w'.log (.num x) "heat_budget" = some (.num y) := by
      unfold loggedNum at hy
      split at hy
      · rename_i z hz; rw [hz]; rw [Option.some.inj hy]
      · cases hy
    obtain ⟨r, hr, hrx⟩ := cell_row hcell
    rcases h3 with e | ⟨r', e, hr', _⟩
    · rw [e] at hr ⊢
      obtain ⟨i, hi, ex⟩ := hplace r hr x hrx
      exact ⟨i, by simpa using hi, ex⟩
    · rw [e, List.mem_append, List.mem_singleton] at hr
      rw [e]
      rcases hr with hr | rfl
      · obtain ⟨i, hi, ex⟩ := hplace r hr x hrx
        exact ⟨i, by simp; omega, ex⟩
      · rw [hr', Option.some.injEq, Cell.num.injEq] at hrx
        exact ⟨k', by simp, hrx.symm⟩
  have hlogk := h2 k' le_rfl
  rcases h3 with e | ⟨r, e, hr, hk⟩
  · left
    rw [e]
    exact ⟨by simp, vfull⟩
  right
  refine ⟨by rw [e]; simp, ⟨r, by rw [e]; simp, ?_⟩, ?_⟩
  · rw [hk]
    unfold partColumns
    rw [List.mem_cons, List.mem_append]
    rintro (e | e | e)
    · revert e; decide
    · exact absurd e (viscosity_not_flux g.models.fluxes)
    · revert e; decide
  have hne : w'.log ≠ (ws k').log := by
    rw [e, hlogk]
    intro hc
    have := congrArg List.length hc
    simp at this
  have hrej : RejectedStep g (ws k') w' := by
    rcases ended with he | he
    · exact absurd (by rw [he]) hne
    · exact he
  -- the worlds are those of the table
  have hsame : ∀ i, i ≤ k' → ws i = ws' i := by
    intro i
    induction i with
    | zero => intro _; rw [e0, t.start]
    | succ i ih =>
      intro hi
      have a := (acc i hi).2.1
      have b := (t.accepted i hi).2.1
      rw [ih (by omega), b] at a
      exact (Prod.mk.inj a).2.symm
  have hter : (ws k').terrain = w.terrain := by rw [hsame _ le_rfl]; exact t.terrain _ le_rfl
  have hpk := hpos k' le_rfl
  have := losing_heat_grows (x0 := x0) (by rw [hter]; exact hg) (by rw [hpk]; have : 0 ≤ (k' : ℝ) * g.dx := mul_nonneg (Nat.cast_nonneg _) hg.step.le; linarith)
    (by rw [hter]; exact hv.depth) ?_ ?_ hrej
  · rcases this with ⟨e, _⟩ | ⟨z, hz, hz0⟩
    · exact absurd e hne
    · rw [hpk] at hz
      exact ⟨z, hz, hz0⟩
  · rcases Nat.eq_zero_or_pos k' with rfl | hk
    · rw [e0]; exact hv.hot
    · obtain ⟨m, rfl⟩ := Nat.exists_eq_succ_of_ne_zero hk.ne'
      exact ((C13_accepted_reason g _ _ (acc m (Nat.lt_succ_self m))).2 hrej.1).1
  · intro hi
    rcases Nat.eq_zero_or_pos k' with rfl | hk
    · rw [e0] at hi ⊢; exact hE hi
    · obtain ⟨m, rfl⟩ := Nat.exists_eq_succ_of_ne_zero hk.ne'
      rw [hsame _ le_rfl, t.effusion m (Nat.lt_succ_self m)]
      have m0 := t.made 0 (Nat.succ_pos m)
      obtain ⟨z, hz⟩ := m0.velocity
      rw [t.start] at hz
      rw [hrate _ _ hz]
      split
      · exact mul_pos (mul_pos m0.moving hg.width) hv.depth
      · rename_i hi0; exact hE hi0

/-- **C124**, the loop: a row that is not complete shows a heat budget that is not positive. -/
theorem C124_loop (w w' : World ℝ) (hg : Sensible g w.terrain x0) (hx : x0 ≤ w.st.pos) (hv : AtVent g w) (hlog : w.log = [])
    (hE : w.iteration ≠ 0 → 0 < w.effusionRate) (n : Nat) (h : runLoop g n w = some (.ok (), w')) (x y : ℝ)
    (hy : loggedNum w'.log x "heat_budget" = some y) (hn : ¬ CompleteRow w'.log x) : y ≤ 0 := by
  obtain ⟨k, h1, h2, h3⟩ := last_row w w' hg hx hv hlog hE n h
  obtain ⟨i, hi, rfl⟩ := h2 x y hy
  have hik : ¬ i < k := fun hc => hn ((h1 _).mpr ⟨i, hc, rfl⟩)
  rcases h3 with ⟨e, _⟩ | ⟨e, _, z, hz, hz0⟩
  · omega
  · have : i = k := by omega
    subst this
    rw [hy, Option.some.injEq] at hz
    rw [hz]; exact hz0

/-- **C124**. In the results of a run with sensible parameters that ended normally every row shows a heat budget, and a row is complete if and only if that is positive. -/
theorem C124_run (env : Env ℝ) (jsonFile folder : String) (p p' : Proc ℝ) (data : Json ℝ) (pr : Prepared ℝ)
    (hdata : lookup p.json (env.canon jsonFile) = some data) (hlog0 : p.log = []) (hprep : prepare env data [] = .ok pr)
    (hg : Sensible pr.integrator pr.world.terrain pr.world.st.pos) (hv : AtVent pr.integrator pr.world)
    (hm : pr.integrator.massConservation = true → pr.world.terrain.effusionRateInit ≠ 0)
    (n : Nat) (h : run n env jsonFile folder p = some (.ok (), p')) :
    (∀ r ∈ p'.log, "heat_budget" ∈ r.keys) ∧
    ∀ x y, loggedNum p'.log x "heat_budget" = some y → (CompleteRow p'.log x ↔ 0 < y) := by
  obtain ⟨_, _, _, hlog, hit, hfin, _⟩ := prepared_facts hprep
  obtain ⟨w', hsim, ew⟩ := run_log hdata (by rw [hlog0]; exact hprep) h
  rw [ew]
  obtain ⟨w1, h1, hv1, hl1, hit1, hst1, ht1, _⟩ := C117_depth_search pr.world hg le_rfl hv
  have hg1 : Sensible pr.integrator w1.terrain pr.world.st.pos := by rw [ht1]; exact hg.withDepth _
  have hsim0 := hsim
  have hi1 : w1.iteration = 0 := hit1.trans hit
  have hlog1 : w1.log = [] := hl1.trans hlog
  unfold simulateOn at hsim
  unfold initEffusionRate at h1
  rw [h1] at hsim
  have hloop : runLoop pr.integrator n w1 = some (.ok (), w') := hsim
  refine ⟨fun r hr => ?_, fun x y hy => ⟨fun hc => ?_, fun hy0 => ?_⟩⟩
  · obtain ⟨k, ws, row, _, _, _, c1, _, c3⟩ := C63_rows pr.integrator hg.step n w1 w' hlog1 hloop
    have full : r ∈ (List.range k).map row → "heat_budget" ∈ r.keys := by
      intro hm
      obtain ⟨i, hi, rfl⟩ := List.mem_map.mp hm
      rw [(c1 i (List.mem_range.mp hi)).2]
      unfold runColumns
      simp
    rcases c3 with e | ⟨r', e, _, c4⟩
    · rw [e] at hr; exact full hr
    · rw [e, List.mem_append, List.mem_singleton] at hr
      rcases hr with hr | rfl
      · exact full hr
      · rw [c4]; unfold partColumns; simp
  · obtain ⟨_, hp⟩ := C119_simulation pr.world w' hg le_rfl hv hlog hit hm n hsim0
    obtain ⟨z, z1, z2⟩ := (hp x hc).heat_budget
    rw [hy, Option.some.injEq] at z1
    rw [z1]; exact z2
  · by_contra hn
    exact absurd hy0 (not_lt.mpr (C124_loop w1 w' hg1 (by rw [hst1]) hv1 hlog1 (fun h => absurd hi1 h) n hloop x y hy hn))

/-- **C124**, post-processing. The results of such a run can be post-processed if and only if they have at least two rows, the last of them shows a positive heat budget, and the slope
    file has a line that is near enough. -/
theorem C124_post_processing (env : Env ℝ) (jsonFile folder : String) (p p' : Proc ℝ) (data : Json ℝ) (pr : Prepared ℝ)
    (hdata : lookup p.json (env.canon jsonFile) = some data) (hlog0 : p.log = []) (hprep : prepare env data [] = .ok pr)
    (hg : Sensible pr.integrator pr.world.terrain pr.world.st.pos) (hv : AtVent pr.integrator pr.world)
    (hm : pr.integrator.massConservation = true → pr.world.terrain.effusionRateInit ≠ 0)
    (n : Nat) (h : run n env jsonFile folder p = some (.ok (), p'))
    (round : Nat → ℝ → ℝ) (t : CsvTable (Cell ℝ)) (ht : writeValues p'.log = .ok (some t)) (lines : List (SlopeLine ℝ)) :
    (∃ ro, getRunOut round t lines = .ok ro) ↔
      2 ≤ p'.log.length ∧
      (∃ y, loggedNum p'.log (pr.world.st.pos + (p'.log.length - 1) * pr.integrator.dx) "heat_budget" = some y ∧ 0 < y) ∧
      ∃ l ∈ lines, l.dist ≤ 2 * pr.world.st.pos + p'.log.length * pr.integrator.dx := by
  obtain ⟨_, _, _, hlog, hit, hfin, _⟩ := prepared_facts hprep
  obtain ⟨w', hsim, ew⟩ := run_log hdata (by rw [hlog0]; exact hprep) h
  have hrow := (C124_run env jsonFile folder p p' data pr hdata hlog0 hprep hg hv hm n h).2
  rw [ew] at ht hrow ⊢
  obtain ⟨w1, h1, hv1, hl1, hit1, hst1, ht1, _⟩ := C117_depth_search pr.world hg le_rfl hv
  have hg1 : Sensible pr.integrator w1.terrain pr.world.st.pos := by rw [ht1]; exact hg.withDepth _
  have hsim0 := hsim
  have hi1 : w1.iteration = 0 := hit1.trans hit
  have hlog1 : w1.log = [] := hl1.trans hlog
  have hp1 : w1.st.pos = pr.world.st.pos := by rw [hst1]
  unfold simulateOn at hsim
  unfold initEffusionRate at h1
  rw [h1] at hsim
  have hloop : runLoop pr.integrator n w1 = some (.ok (), w') := hsim
  rw [C60_run_can_be_post_processed round pr.integrator hg.step n w1 w' hlog1 hloop t ht lines, hp1]
  obtain ⟨k, c1, c2, c3⟩ := last_row w1 w' hg1 (by rw [hp1]) hv1 hlog1 (fun h => absurd hi1 h) n hloop
  rw [hp1] at c1 c2 c3
  refine and_congr_right fun h2 => and_congr_left fun _ => ?_
  rcases c3 with ⟨e, c4⟩ | ⟨e, ⟨r, hr, hvis⟩, z, hz, hz0⟩
  · refine ⟨fun _ => ?_, fun _ r hr => c4 r (List.mem_of_mem_getLast? hr)⟩
    have hc : CompleteRow w'.log (pr.world.st.pos + (w'.log.length - 1) * pr.integrator.dx) :=
      (c1 _).mpr ⟨k - 1, by omega, by rw [e, Nat.cast_sub (by omega)]; norm_num⟩
    obtain ⟨_, hp⟩ := C119_simulation pr.world w' hg le_rfl hv hlog hit hm n hsim0
    exact (hp _ hc).heat_budget
  · constructor
    · intro h3
      exact absurd (h3 r (by rw [hr]; rfl)) hvis
    · rintro ⟨y, hy, hy0⟩
      have : ((w'.log.length : ℝ) - 1) = k := by rw [e]; push_cast; ring
      rw [this, hz, Option.some.injEq] at hy
      linarith

/-- **C124**. The complete rows of such a run are its first `k` ones, one step apart from the vent on; at most one row follows them, and that row shows a heat budget that is not positive. -/
theorem C124_complete_rows (env : Env ℝ) (jsonFile folder : String) (p p' : Proc ℝ) (data : Json ℝ) (pr : Prepared ℝ)
    (hdata : lookup p.json (env.canon jsonFile) = some data) (hlog0 : p.log = []) (hprep : prepare env data [] = .ok pr)
    (hg : Sensible pr.integrator pr.world.terrain pr.world.st.pos) (hv : AtVent pr.integrator pr.world)
    (n : Nat) (h : run n env jsonFile folder p = some (.ok (), p')) :
    ∃ k : Nat, (∀ x, CompleteRow p'.log x ↔ ∃ i : Nat, i < k ∧ x = pr.world.st.pos + i * pr.integrator.dx) ∧
      (p'.log.length = k ∨ p'.log.length = k + 1 ∧
        ∃ y, loggedNum p'.log (pr.world.st.pos + k * pr.integrator.dx) "heat_budget" = some y ∧ y ≤ 0) := by
  obtain ⟨_, _, _, hlog, hit, hfin, _⟩ := prepared_facts hprep
  obtain ⟨w', hsim, ew⟩ := run_log hdata (by rw [hlog0]; exact hprep) h
  rw [ew]
  obtain ⟨w1, h1, hv1, hl1, hit1, hst1, ht1, _⟩ := C117_depth_search pr.world hg le_rfl hv
  have hg1 : Sensible pr.integrator w1.terrain pr.world.st.pos := by rw [ht1]; exact hg.withDepth _
  have hi1 : w1.iteration = 0 := hit1.trans hit
  have hp1 : w1.st.pos = pr.world.st.pos := by rw [hst1]
  unfold simulateOn at hsim
  unfold initEffusionRate at h1
  rw [h1] at hsim
  obtain ⟨k, c1, _, c3⟩ := last_row w1 w' hg1 (by rw [hp1]) hv1 (hl1.trans hlog) (fun h => absurd hi1 h) n hsim
  rw [hp1] at c1 c3
  exact ⟨k, c1, c3.imp (·.1) fun h => ⟨h.1, h.2.2⟩⟩

end PyFlowGo
