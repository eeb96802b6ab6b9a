import Verif.Proofs.Plausible
import Verif.Props.Sensible
/-
  C119: every complete row of a run with sensible parameters shows physically possible numbers.
-/
set_option linter.unusedSectionVars false
namespace PyFlowGo
open Spec

variable {g : Integrator ℝ} {x0 : ℝ}

/-- The loop, with a mass flux that is positive if the lava moves at all. -/
theorem plausible_loop (w w' : World ℝ) (hg : Sensible g w.terrain x0) (hx : x0 ≤ w.st.pos) (hv : AtVent g w) (hlog : w.log = [])
    (hE : w.iteration ≠ 0 → 0 < w.effusionRate)
    (hm : g.massConservation = true → ∃ fr, w.fluxRate = some fr ∧ (Moves g w.terrain w.st → 0 < fr))
    (n : Nat) (h : runLoop g n w = some (.ok (), w')) (x : ℝ) (hrow : CompleteRow w'.log x) :
    PlausibleRow g w.terrain.depth w.st w'.log x := by
  have hs : Fit g w.terrain x0 w.st := ⟨hx, hv.crystals, hv.hot, hv.room, hv.off, hv.ground⟩
  have hr : Ready g w := ⟨hv.depth, hE, fun h => (hm h).imp fun _ => And.left⟩
  obtain ⟨c, hc⟩ := velocity_total hg hv.depth hs
  obtain ⟨v, xs, _, hvel, _, _⟩ := hc w.st.strain
  have hvel : g.models.lava.meanVelocity w.terrain w.st = .ok (v, xs) := hvel
  have hrate : VentRate g w (if w.iteration = 0 then v * w.terrain.width * w.terrain.depth else w.effusionRate) := by
    intro v' x' h'
    rw [hvel, Except.ok.injEq, Prod.mk.injEq] at h'
    rw [h'.1]
  obtain ⟨k, ws, d, t⟩ := run_table g hg.step n w w' hlog h _ hrate
  obtain ⟨y, hy⟩ := hrow
  obtain ⟨i, hi, rfl⟩ := t.shown _ (step_not_part g _ (by simp)) _ _ hy
  have hv0 : 0 < v := by
    have m0 := t.made 0 (by omega)
    obtain ⟨z, hz⟩ := m0.velocity
    rw [t.start, hvel, Except.ok.injEq, Prod.mk.injEq] at hz
    have := m0.moving
    rw [← hz.1] at this
    exact this
  refine plausible_rows hg hs hr (fun h => (hm h).imp fun _ h => ⟨h.1, h.2 (moves_of hg hv.depth hs (y := w.st.strain) hvel hv0)⟩)
    (fun hk => ?_) t i hi
  by_cases hit : w.iteration = 0
  · rw [if_pos hit]
    exact mul_pos (mul_pos hv0 hg.width) hv.depth
  · rw [if_neg hit]; exact hE hit

/-- **C119**, the loop. A finished loop with sensible parameters that started from lava that can flow, with an empty log, leaves a log whose
    complete rows show physically possible numbers in all the columns of the integrator. -/
theorem C119_loop (w w' : World ℝ) (hg : Sensible g w.terrain x0) (hx : x0 ≤ w.st.pos) (hv : AtVent g w) (hlog : w.log = [])
    (hE : w.iteration ≠ 0 → 0 < w.effusionRate) (hm : g.massConservation = true → ∃ fr, w.fluxRate = some fr ∧ 0 < fr)
    (n : Nat) (h : runLoop g n w = some (.ok (), w')) (x : ℝ) (hrow : CompleteRow w'.log x) :
    PlausibleRow g w.terrain.depth w.st w'.log x :=
  plausible_loop w w' hg hx hv hlog hE (fun h => (hm h).imp fun _ h => ⟨h.1, fun _ => h.2⟩) n h x hrow

/-- **C119**, the table is not empty: if the lava moves at the vent and loses heat there in a channel of any width, the first row is complete. -/
theorem C119_first_row (w w' : World ℝ) (hg : Sensible g w.terrain x0) (hx : x0 ≤ w.st.pos) (hv : AtVent g w) (hlog : w.log = [])
    (hfin : w.finished = false) (hit : w.iteration = 0) (hmass : g.massConservation = false) (hl : StrainIndependent g.models.lava)
    (v y : ℝ) (hvel : g.models.lava.meanVelocity w.terrain w.st = .ok (v, y)) (hv0 : 0 < v)
    (hq : ∀ width qs, 0 < width → List.Forall₂ (FluxIs g.models width w.terrain.depth w.terrain w.st) g.models.fluxes qs → 0 < qs.sum)
    (n : Nat) (h : runLoop g n w = some (.ok (), w')) : CompleteRow w'.log w.st.pos := by
  have hrate : VentRate g w (v * w.terrain.width * w.terrain.depth) := by
    intro v' x' h'
    rw [hvel, Except.ok.injEq, Prod.mk.injEq] at h'
    rw [if_pos hit, h'.1]
  obtain ⟨k, ws, d, t⟩ := run_table g hg.step n w w' hlog h _ hrate
  rcases Nat.eq_zero_or_pos k with rfl | hk
  · exfalso
    rcases t.ended with he | he
    · have := t.finished
      rw [he, t.start, hfin] at this
      cases this
    · rw [t.start] at he
      obtain ⟨_, he, hne⟩ := he
      cases singleStep_ok he with
      | still v' x' hv' hle hw =>
        rw [hvel, Except.ok.injEq, Prod.mk.injEq] at hv'
        rw [leB_real, ← hv'.1] at hle
        norm_num at hle
        linarith
      | noGrowth v' x' hv' hle d w1 es y' facts hphi hw =>
        rw [hvel, Except.ok.injEq, Prod.mk.injEq] at hv'
        obtain ⟨rfl, rfl⟩ := hv'
        have heff : w.stepEffusion v = v * w.terrain.width * w.terrain.depth := by
          unfold World.stepEffusion; rw [if_pos (by simpa using hit)]
        have hE : 0 < w.stepEffusion v := by rw [heff]; exact mul_pos (mul_pos hv0 hg.width) hv.depth
        have hwid : 0 < d.width := by
          have := facts.width
          rw [hmass] at this
          simp only [channelWidth, Bool.false_eq_true, if_false] at this
          rw [(div_ok_iff.mp this).2]
          exact div_pos hE (mul_pos hv0 hv.depth)
        obtain ⟨qs, q1, q2⟩ := (C45_budget_is_sum hl _ _ _ _).mp ⟨_, facts.heat⟩
        have q1 : List.Forall₂ (FluxIs g.models d.width w.terrain.depth w.terrain w.st) g.models.fluxes qs :=
          q1.imp fun f q hf => (fluxIs_strain hl _ _ _ _ _ _ _).mp hf
        have hheat : 0 < d.heat := by rw [q2]; exact hq _ _ hwid q1
        obtain ⟨r, hr0, hr⟩ := hg.rate w.st hx hv.hot
        have hdr := facts.rate
        rw [hr, Except.ok.injEq] at hdr
        have hden : 0 < w.stepEffusion v * g.models.lava.density w.st * g.models.lava.latentHeat * d.rate :=
          mul_pos (mul_pos (mul_pos hE (density_pos hg hx)) hg.latent) (by rw [← hdr]; exact hr0)
        have hdt := (div_ok_iff.mp facts.dtemp).2
        have hneg : d.dtempDx < 0 := by rw [hdt, neg_div]; exact neg_lt_zero.mpr (div_pos hheat hden)
        rw [leB_real, facts.newPhi, facts.dphi] at hphi
        have : 0 < d.dtempDx * -d.rate * g.dx := by
          refine mul_pos ?_ hg.step
          rw [← hdr]; nlinarith
        linarith
      | accepted v' x' hv' hle d w1 es y' facts hphi visc tc f v2 y2 tho0 thob hvisc htc hv2 hf2 ht0 htb dt strain hdt hst s' hs' stop hstop hw =>
        rw [hw] at hne
        exact hne rfl
  · have := (t.row 0 hk).crystal_fraction
    rw [t.start] at this
    exact ⟨_, this⟩

/-- The mass flux that the search leaves is that of the velocity at the depth that it leaves. -/
theorem search_flux (grid : List ℝ) (hgrid : grid ≠ []) (w w' : World ℝ) (h : depthSearch g.models.lava grid w = (.ok (), w')) :
    ∃ y v x, g.models.lava.meanVelocity w'.terrain { w'.st with strain := y } = .ok (v, x) ∧
      w'.fluxRate = some (v * w'.terrain.width * w'.terrain.depth * g.models.lava.density w'.st) := by
  induction grid generalizing w with
  | nil => exact absurd rfl hgrid
  | cons d grid ih =>
    unfold depthSearch at h
    rw [PyM.bind_of_ok (PyM.modify_apply _ _)] at h
    obtain ⟨v, w1, h1, h⟩ := PyM.bind_eq_ok.mp h
    obtain ⟨x, hv, hw1⟩ := meanVelocityM_ok h1
    rw [PyM.bind_of_ok (PyM.modify_apply _ _), PyM.bind_of_ok (PyM.modify_apply _ _), PyM.bind_of_ok (PyM.get_apply _)] at h
    split at h
    · have e := (Prod.mk.inj h).2
      rw [← e, hw1]
      exact ⟨w.st.strain, v, x, hv, rfl⟩
    · cases grid with
      | nil =>
        have e := (Prod.mk.inj h).2
        rw [← e, hw1]
        exact ⟨w.st.strain, v, x, hv, rfl⟩
      | cons d2 grid => exact ih (by simp) _ h

/-- **C119**, the simulation: the search for the channel depth, then the loop. -/
theorem C119_simulation (w w' : World ℝ) (hg : Sensible g w.terrain x0) (hx : x0 ≤ w.st.pos) (hv : AtVent g w) (hlog : w.log = [])
    (hit : w.iteration = 0) (hm : g.massConservation = true → w.terrain.effusionRateInit ≠ 0)
    (n : Nat) (h : simulateOn depthGrid n g w = some (.ok (), w')) :
    0 < w'.terrain.depth ∧ ∀ x, CompleteRow w'.log x → PlausibleRow g w'.terrain.depth w.st w'.log x := by
  obtain ⟨w1, h1, hv1, hl1, hit1, hst1, ht1, _⟩ := C117_depth_search w hg hx hv
  have hg1 : Sensible g w1.terrain x0 := by rw [ht1]; exact hg.withDepth _
  have hx1 : x0 ≤ w1.st.pos := by rw [hst1]; exact hx
  have hs1 : Fit g w1.terrain x0 w1.st := ⟨hx1, hv1.crystals, hv1.hot, hv1.room, hv1.off, hv1.ground⟩
  have hm1 : g.massConservation = true → ∃ fr, w1.fluxRate = some fr ∧ (Moves g w1.terrain w1.st → 0 < fr) := by
    intro hmass
    have hz := hm hmass
    unfold initEffusionRate initEffusionRateOn at h1
    rw [PyM.bind_of_ok (PyM.get_apply _), if_neg (by rw [eqB_real]; norm_num; exact hz)] at h1
    obtain ⟨y, v, xs, hvel, hfr⟩ := search_flux depthGrid grid_nonempty w w1 h1
    refine ⟨_, hfr, fun hmv => ?_⟩
    obtain ⟨v', x', hv', h0⟩ := hmv y
    rw [hvel, Except.ok.injEq, Prod.mk.injEq] at hv'
    rw [hv'.1]
    exact mul_pos (mul_pos (mul_pos h0 hg1.width) hv1.depth) (density_pos hg1 hx1)
  have hloop : runLoop g n w1 = some (.ok (), w') := by
    unfold simulateOn at h
    unfold initEffusionRate at h1
    rw [h1] at h
    exact h
  have hter := (loop_total n w1 hg1 hs1 ⟨hv1.depth, fun h => absurd (hit1.trans hit) h, fun h => (hm1 h).imp fun _ => And.left⟩ _ _ hloop).1
  refine ⟨by rw [hter]; exact hv1.depth, fun x hrow => ?_⟩
  have key := plausible_loop w1 w' hg1 hx1 hv1 (hl1.trans hlog) (fun h => absurd (hit1.trans hit) h) hm1 n hloop x hrow
  rw [hst1, ← hter] at key
  exact ⟨key.1, key.2, key.3, key.4, key.5, key.6, key.7, key.8, key.9, key.10, key.11, key.12, key.13, key.14, key.15, key.16, key.17,
    key.18, key.19, key.20⟩

/-- **C119**, the whole run. A configuration that can be loaded, whose parameters are sensible and whose lava can flow at its vent: whenever
    `run_flowgo` returns, every complete row of what it recorded (and of the result file, which is made from it) shows physically possible
    numbers. -/
theorem C119_run (env : Env ℝ) (jsonFile folder : String) (p p' : Proc ℝ) (data : Json ℝ) (pr : Prepared ℝ)
    (hdata : lookup p.json (env.canon jsonFile) = some data) (hprep : prepare env data [] = .ok pr)
    (hg : Sensible pr.integrator pr.world.terrain pr.world.st.pos) (hv : AtVent pr.integrator pr.world)
    (hm : pr.integrator.massConservation = true → pr.world.terrain.effusionRateInit ≠ 0)
    (n : Nat) (h : run n env jsonFile folder (newRunner p) = some (.ok (), p')) :
    ∃ depth, 0 < depth ∧ (∀ x, CompleteRow p'.log x → PlausibleRow pr.integrator depth pr.world.st p'.log x) ∧
      (p'.log ≠ [] → ∃ t, p'.results =
          (env.canon (resultFileName folder (pr.cfg.lavaName.show env) (pr.cfg.rate.show env)), t) :: p.results ∧
        t.rows.length = p'.log.length ∧ ∀ name ∈ t.header, t.column name = .ok (p'.log.getValues name)) := by
  obtain ⟨_, _, _, hlog, hit, hfin, _⟩ := prepared_facts hprep
  have hrun := h
  unfold run at h
  rw [runOn_finish depthGrid n env jsonFile folder (newRunner p) data hdata pr hprep] at h
  cases hsim : simulateOn depthGrid n pr.integrator pr.world with
  | none => rw [hsim] at h; cases h
  | some q =>
    obtain ⟨r, w'⟩ := q
    rw [hsim] at h
    cases r with
    | error e =>
      have h : some (Except.error e, { newRunner p with log := w'.log }) = some (Except.ok (), p') := h
      cases h
    | ok u =>
      obtain ⟨p2, h1, h2, h3, h4, h5⟩ := C04_run_writes (fun c => beq_self_eq_true c) depthGrid n env jsonFile folder p data pr w' hdata hprep hsim
      unfold run at hrun
      rw [hrun] at h1
      have e : p' = p2 := by simpa using h1
      subst e
      obtain ⟨k1, k2⟩ := C119_simulation pr.world w' hg le_rfl hv hlog hit hm n hsim
      rw [h2]
      exact ⟨_, k1, k2, h5⟩

end PyFlowGo
