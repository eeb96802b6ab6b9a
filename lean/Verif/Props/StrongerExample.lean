import Verif.Props.StrongerConfig
import Verif.Props.PlausibleExample
/-
  C121: the lava of the template, cooled by a little rain, in a channel of the template's depth and in one of twice that depth.
-/
set_option linter.unusedSectionVars false
namespace PyFlowGo
open Spec

/-- The template's own models are within C121. -/
theorem template_everyday (m : Models ℝ) (hm : m = { templateModels with fluxes := m.fluxes }) (hf : ∀ f ∈ m.fluxes, EverydayFlux m f) (mass : Bool) (dx x0 : ℝ) :
    Everyday { dx := dx, models := m, massConservation := mass } x0 (0.896 / (1387.15 - 1237.15)) where
  strain := by
    rw [hm]
    exact ⟨fun _ _ _ _ _ _ _ _ h => (by cases h), fun _ h => (by cases h), fun _ _ _ _ _ h => (by cases h)⟩
  rate := by
    refine ⟨by norm_num, fun s => ?_⟩
    rw [hm]
    show PyNum.div (0.896 : ℝ) (1387.15 - 1237.15) = _
    rw [div_of_ne (by norm_num)]
  steady := by
    intro s s' _
    rw [hm]
    rfl
  air := by rw [hm]; show (0 : ℝ) < 293.15; norm_num
  crust := by
    intro s Tc _ h
    rw [hm] at h ⊢
    have : Tc = 773.15 := by
      have h2 : Except.ok (773.15 : ℝ) = (Except.ok Tc : Except Err ℝ) := h
      injection h2 with h2
      exact h2.symm
    rw [this]
    refine ⟨by norm_num, ?_, ?_, ?_⟩
    · show (293.15 : ℝ) ≤ 773.15; norm_num
    · have := crust_exponent
      rw [← Real.rpow_mul (by norm_num)] at this
      exact this
    · show (773.15 : ℝ) ≤ 1237.15 - 140; norm_num
  fluxes := hf

/-- The template itself. -/
example (mass : Bool) (dx x0 : ℝ) : Everyday { dx := dx, models := templateModels, massConservation := mass } x0 (0.896 / (1387.15 - 1237.15)) := by
  refine template_everyday templateModels rfl ?_ mass dx x0
  intro f hf
  have hfl : templateModels.fluxes = [.radBasic 5.67e-8 0.95, .conduction 773.15 19, .convection] := rfl
  rw [hfl] at hf
  simp only [List.mem_cons, List.not_mem_nil, or_false] at hf
  rcases hf with rfl | rfl | rfl
  · show (0 : ℝ) ≤ 5.67e-8 * 0.95; norm_num
  · refine ⟨by norm_num, ?_⟩
    show (773.15 : ℝ) ≤ 1237.15; norm_num
  · show (0 : ℝ) ≤ templateModels.air.convCoef
    unfold Air.convCoef templateModels
    norm_num

/-- Under rain alone a step that writes the heat budget is accepted. -/
theorem rain_rejected {g : Integrator ℝ} {a b c : ℝ} (heps : 0 < a * b * c) (hf : g.models.fluxes = [.rain a b c]) (hm : g.massConservation = false) (hdx : 0 < g.dx)
    {w w' : World ℝ} (hd : 0 < w.terrain.depth) (hwid : 0 < w.terrain.width) (hE : w.iteration ≠ 0 → 0 < w.effusionRate) (hrho : 0 < g.models.lava.density w.st)
    (hL : 0 < g.models.lava.latentHeat) (hr : ∀ r, g.models.cryst.rate w.st = .ok r → 0 < r) (h : RejectedStep g w w') : w'.log = w.log := by
  have hphi := h.2.2
  cases singleStep_ok h.2.1 with
  | still v x hv hle hw => rw [hw]
  | noGrowth v x hv hle d w1 es y f hphi hw =>
    exfalso
    have v0 : 0 < v := by
      rw [← Bool.not_eq_true, leB_real, not_le] at hle
      norm_num at hle
      exact hle
    have e0 : 0 < w.stepEffusion v := by
      unfold World.stepEffusion
      by_cases hi : w.iteration = 0
      · rw [hi]
        exact mul_pos (mul_pos v0 hwid) hd
      · have hb : (w.iteration == 0) = false := by simpa using hi
        rw [hb]
        exact hE hi
    have hw0 : 0 < d.width := by
      have := f.width
      unfold channelWidth at this
      rw [hm] at this
      have := div_ok_iff.mp this
      rw [this.2]
      positivity
    obtain ⟨w2, hq⟩ := rain_budget g.models a b c d.width w.terrain.depth { w with st := { w.st with strain := x }, effusionRate := w.stepEffusion v } hf
    have hq2 := f.heat
    rw [hq, Prod.mk.injEq, Except.ok.injEq] at hq2
    have q0 : 0 < d.heat := by rw [← hq2.1]; exact mul_pos heps hw0
    have r0 := hr _ f.rate
    have ht := (div_ok_iff.mp f.dtemp).2
    rw [leB_real, f.newPhi, f.dphi, ht] at hphi
    have : 0 < -d.heat / (w.stepEffusion v * g.models.lava.density w.st * g.models.lava.latentHeat * d.rate) * -d.rate * g.dx := by
      rw [neg_div, neg_mul_neg]; positivity
    linarith
  | accepted =>
    rename_i hw
    exact absurd (by rw [hw]) hphi

/-- Under rain alone every step is small, and every row of the table loses heat. -/
theorem rain_table {g : Integrator ℝ} {a b c x0 r : ℝ} (habc : 0 < a * b * c) (hf : g.models.fluxes = [.rain a b c]) (hm : g.massConservation = false)
    (w w' : World ℝ) (hg : Sensible g w.terrain x0) (hr : 0 < r ∧ ∀ s, g.models.cryst.rate s = .ok r) (hx : x0 ≤ w.st.pos) (hv : AtVent g w) (hlog : w.log = [])
    (hit : w.iteration = 0) (n : Nat) (h : runLoop g n w = some (.ok (), w')) (hottest : ℝ) :
    StepIsSmall g w.terrain.depth hottest r w'.log ∧ ∀ x q, loggedNum w'.log x "heat_budget" = some q → 0 < q := by
  have fa : Fit g w.terrain x0 w.st := ⟨hx, hv.crystals, hv.hot, hv.room, hv.off, hv.ground⟩
  obtain ⟨ka, hka⟩ := velocity_total hg hv.depth fa
  obtain ⟨v0, xa, _, eva, _, _⟩ := hka w.st.strain
  have eva : g.models.lava.meanVelocity w.terrain w.st = .ok (v0, xa) := eva
  have hrate : VentRate g w (v0 * w.terrain.width * w.terrain.depth) := by
    intro v' x' h'
    rw [eva, Except.ok.injEq, Prod.mk.injEq] at h'
    rw [h'.1, if_pos hit]
  obtain ⟨k, ws, d, t⟩ := run_table g hg.step n w w' hlog h _ hrate
  have hplaus : ∀ i, i < k → PlausibleRow g w.terrain.depth w.st w'.log (ws i).st.pos := by
    intro i hi
    exact plausible_loop w w' hg hx hv hlog (fun h => absurd hit h) (fun h => by rw [hm] at h; cases h) n h _ ⟨_, (t.row i hi).crystal_fraction⟩
  constructor
  · intro x v rho h1 h2
    obtain ⟨i, hi, rfl⟩ := t.shown _ (step_not_part g _ (by simp)) _ _ h1
    obtain ⟨y, e1, e2⟩ := (hplaus i hi).mean_velocity
    rw [h1, Option.some.injEq] at e1
    obtain ⟨z, e3, e4, _⟩ := (hplaus i hi).density
    rw [h2, Option.some.injEq] at e3
    rw [e1, e3, hf]
    have hz : ([Flux.rain a b c].map (wattPerKelvin g.models w.terrain.depth hottest)).sum = 0 := by simp [wattPerKelvin]
    rw [hz, mul_zero]
    have := hv.depth
    have := hg.latent
    have := hr.1
    positivity
  · intro x q hq'
    have hlast : w'.log = (ws k).log := by
      rcases t.ended with h | h
      · rw [h]
      · have hk := t.terrain k le_rfl
        have fk : x0 ≤ (ws k).st.pos := by
          rw [t.pos k le_rfl]
          have := hg.step
          have : 0 ≤ (k : ℝ) * g.dx := by positivity
          linarith
        refine rain_rejected habc hf hm hg.step (by rw [hk]; exact hv.depth) (by rw [hk]; exact hg.width) (fun hi => ?_) (density_pos hg fk) hg.latent ?_ h
        · cases k with
          | zero => rw [t.start] at hi; exact absurd hit hi
          | succ k =>
            rw [t.effusion k (Nat.lt_succ_self k)]
            have m0 := t.made 0 (Nat.succ_pos k)
            obtain ⟨z, hz⟩ := m0.velocity
            rw [t.start, eva, Except.ok.injEq, Prod.mk.injEq] at hz
            have hmv := m0.moving
            rw [← hz.1] at hmv
            exact mul_pos (mul_pos hmv hg.width) hv.depth
        · intro r' hr'
          rw [hr.2, Except.ok.injEq] at hr'
          rw [← hr']; exact hr.1
    rw [hlast] at hq'
    obtain ⟨i, hi, rfl⟩ := shown_accepted hg.step t.accepted (by rw [t.start]; exact hlog) _ _ _ hq'
    rw [← hlast] at hq'
    obtain ⟨y, e1, e2⟩ := (hplaus i hi).heat_budget
    rw [hq', Option.some.injEq] at e1
    rw [e1]; exact e2

/-- **C121**: the hypotheses are met by two runs of the template's lava under a little rain, the second channel twice as deep as the first. The shallower one
    has a complete row at the vent. -/
example : ∃ (g : Integrator ℝ) (r : ℝ) (wa wb a b : World ℝ) (n : Nat), Sensible g wa.terrain 0 ∧ Sensible g wb.terrain 0 ∧ Everyday g 0 r ∧
    AtVent g wa ∧ AtVent g wb ∧ 0 ≤ wa.st.pos ∧ SameVent wa.st wb.st ∧ wa.log = [] ∧ wb.log = [] ∧ wa.iteration = 0 ∧ wb.iteration = 0 ∧
    wb.terrain.depth < wa.terrain.depth ∧ DrivesHarder g.models.lava wa.terrain wb.terrain (fun x _ _ => 0 ≤ x) ∧
    g.models.lava.yieldNotCompatible wb.terrain wb.st = .ok false ∧ g.massConservation = false ∧
    runLoop g n wa = some (.ok (), a) ∧ runLoop g n wb = some (.ok (), b) ∧
    StepIsSmall g wa.terrain.depth (wa.st.temp - g.models.lava.buffer) r a.log ∧
    wb.terrain.maxLength ≤ wa.terrain.maxLength ∧ wa.finished = false ∧ (∀ x q, loggedNum a.log x "heat_budget" = some q → 0 < q) ∧
    CompleteRow b.log 0 := by
  have h2 : 2 ≤ (usableRows templateRows).length := by rw [template_usable]; simp
  have hasc : (usableRows templateRows).Pairwise fun a b => a.dist < b.dist := by rw [template_usable]; simp
  have hprep := template_prepare { exEnv with slopeFile := fun _ => some templateRows } (.int 0) 0
    (by show Except.ok (((0 : ℤ)) : ℝ) = _; norm_num) templateRows rfl h2 hasc
  have hin : ∃ r ∈ usableRows templateRows, ∃ r' ∈ usableRows templateRows, r.dist ≤ (0 : ℝ) ∧ (0 : ℝ) ≤ r'.dist := by
    rw [template_usable]; exact ⟨_, List.mem_cons_self, _, List.mem_cons_self, le_rfl, le_rfl⟩
  have hsteep : ∀ q ∈ usableRows templateRows, q.slopeDeg < 180 := by
    rw [template_usable]
    intro q hq
    simp only [List.mem_cons, List.not_mem_nil, or_false] at hq
    rcases hq with rfl | rfl <;> norm_num
  obtain ⟨hrel, hg⟩ := C117_template_sensible _ _ _ _ hprep templateChoice (exConfig_selects _ _) ⟨rfl, rfl, rfl, rfl, rfl, rfl⟩ (template_physical _ _)
  have hv := template_vent _ _ _ hprep templateChoice (exConfig_selects _ _) ⟨rfl, rfl, rfl, rfl, rfl, rfl⟩ (template_physical _ _)
    "slope.txt" templateRows (Or.inl rfl) rfl hin hsteep
  set pr := templatePrepared (.int 0) 0 templateRows with hpr
  let wb := pr.world
  let wa := pr.world.supplied 0 2.8 0
  -- velocity at the vent of the shallower channel
  have hst : wb.st.pos = 0 := rfl
  have hs : Fit pr.integrator wb.terrain wb.st.pos wb.st := ⟨le_rfl, hv.crystals, hv.hot, hv.room, hv.off, hv.ground⟩
  obtain ⟨mu, hmu, hmu0⟩ := viscosity_total hg hs
  have hy : templateModels.lava.yieldStrength wb.st = .ok (yieldLaw wb.st (.basic 1387.15)) := C34_yield_laws _ _ hv.crystals
  have hy71 : yieldLaw wb.st (.basic 1387.15) ≤ 71 := template_yield
  have hy0 : 0 ≤ yieldLaw wb.st (.basic 1387.15) := by
    obtain ⟨q, q1, q2⟩ := yield_total (g := pr.integrator) hv.crystals
    have hy' : pr.integrator.models.lava.yieldStrength wb.st = .ok (yieldLaw wb.st (.basic 1387.15)) := hy
    rw [hy', Except.ok.injEq] at q1
    rw [q1]; exact q2
  have hdens : ∀ s, templateModels.lava.density s = 2970 * (1 - 0.64) := by
    intro s
    show (2970 : ℝ) * (1.0 - 0.64) = _
    norm_num
  have hb : templateModels.lava.basalStress wb.terrain wb.st = .ok (1.4 * (2970 * (1 - 0.64)) * 9.81 * Real.sin (degToRad 12)) := by
    unfold Lava.basalStress
    rw [hst, template_slope, ok_bind, hdens]
    rfl
  have hsin : 2 / 15 ≤ Real.sin (degToRad 12) := by
    have h0 : 0 ≤ degToRad 12 := by unfold degToRad; positivity
    have h1 : degToRad 12 ≤ Real.pi / 2 := by unfold degToRad; linarith [Real.pi_pos]
    refine le_trans (le_of_eq ?_) (Real.mul_le_sin h0 h1)
    unfold degToRad
    have := Real.pi_pos.ne'
    field_simp
    norm_num
  have hbig : 71 < 1.4 * (2970 * (1 - 0.64)) * 9.81 * Real.sin (degToRad 12) := by nlinarith
  have hvel := (meanVelocity_ok_iff templateModels.lava wb.terrain wb.st _ _).mpr
    ⟨_, _, mu, hy, hb, hmu, hmu0.ne', by linarith, hv.depth.ne', rfl, rfl⟩
  have hv0 := bingham_pos (d := wb.terrain.depth) hv.depth (lt_trans (by norm_num) hbig) hmu0 hy0 (by linarith)
  generalize hV : binghamVelocity wb.terrain.depth (1.4 * (2970 * (1 - 0.64)) * 9.81 * Real.sin (degToRad 12)) mu (yieldLaw wb.st (.basic 1387.15)) = V at hvel hv0
  generalize 3 * V / wb.terrain.depth = Y at hvel
  -- a little rain
  let eps : ℝ := V
  have heps : 0 < eps := hv0
  let m : Models ℝ := { templateModels with fluxes := [.rain eps 1 1] }
  let g : Integrator ℝ := { dx := 10, models := m, massConservation := false }
  have hgm : ∀ T, Sensible pr.integrator T 0 → Sensible g T 0 := fun T h =>
    ⟨h.step, h.gravity, h.width, h.slopes, h.density, h.latent, h.vesicles, h.melt, h.crystals, h.bubbles, h.rate, h.cover, h.crust, h.air, h.molten, fun base p hmem => by
      have : Flux.conduction base p ∈ [(Flux.rain eps 1 1 : Flux ℝ)] := hmem
      simp at this⟩
  have gb : Sensible g wb.terrain 0 := hgm _ hg
  have ga : Sensible g wa.terrain 0 := hgm _ (sensible_supplied hg 0 2.8)
  have vb : AtVent g wb := ⟨hv.crystals, hv.hot, hv.room, hv.off, hv.depth, hv.ground⟩
  have va : AtVent g wa := ⟨hv.crystals, hv.hot, (notCompatible_strain _ _ _).trans hv.room, fun k => hv.off ((atPacking_strain _ wb.st 0).mp k),
    by show (0 : ℝ) < 2.8; norm_num, hv.ground⟩
  have he : Everyday g 0 (0.896 / (1387.15 - 1237.15)) := template_everyday m rfl (by
    intro f hf
    have hf : f ∈ [(Flux.rain eps 1 1 : Flux ℝ)] := hf
    rw [List.mem_singleton.mp hf]
    show 0 ≤ eps * 1 * 1
    linarith) false 10 0
  have hventb : g.models.lava.yieldNotCompatible wb.terrain wb.st = .ok false := by
    have hb' : g.models.lava.basalStress wb.terrain wb.st = _ := hb
    have hy' : g.models.lava.yieldStrength wb.st = _ := hy
    unfold Lava.yieldNotCompatible
    rw [hy', ok_bind, hb', ok_bind, pure_ok_iff, ← Bool.not_eq_true, leB_real, not_le]
    linarith
  have hdrive : DrivesHarder g.models.lava wa.terrain wb.terrain fun x _ _ => 0 ≤ x :=
    (C121_channels g.models.lava wb.terrain _ hv.depth).1 2.8 (by show (1.4 : ℝ) ≤ 2.8; norm_num)
  have hend : ∀ (w : World ℝ), Sensible g w.terrain 0 → AtVent g w → w.st.pos = 0 → w.iteration = 0 → w.terrain.maxLength = 30000 →
      ∃ w', runLoop g 3000 w = some (.ok (), w') := by
    intro w h1 h2 h3 h4 h5
    obtain ⟨res, w', e1, e2⟩ := C117_loop w h1 h3.ge h2 (fun h => absurd h4 h) (fun h => by cases h) 3000 (by norm_num)
      (by rw [h5, h3]; show ((30000 : ℝ) - 0) / 10 ≤ _; norm_num)
    rcases e2 with ⟨rfl, _⟩ | ⟨_, hpk⟩
    · exact ⟨w', e1⟩
    · exact hpk.elim
  obtain ⟨a, hra⟩ := hend wa ga va rfl rfl rfl
  obtain ⟨b, hrb⟩ := hend wb gb vb rfl rfl rfl
  have hvel' : g.models.lava.meanVelocity wb.terrain wb.st = .ok (V, Y) := hvel
  have hq : ∀ (w : World ℝ) width (qs : List ℝ), 0 < width → List.Forall₂ (FluxIs g.models width w.terrain.depth w.terrain w.st) g.models.fluxes qs → qs.sum = eps * width := by
    intro w width qs hw h
    have hfl : g.models.fluxes = [.rain eps 1 1] := rfl
    rw [hfl] at h
    cases h with
    | cons a1 a2 =>
      cases a2
      have a1 : _ = eps * 1 * 1 * width := a1
      rw [a1]
      simp
  have hrow := C119_first_row (g := g) wb b gb le_rfl vb rfl rfl rfl rfl (fun _ _ => rfl) V Y hvel' hv0
    (fun width qs hw h => by rw [hq wb width qs hw h]; exact mul_pos heps hw) 3000 hrb
  obtain ⟨hsmall, hheat⟩ := rain_table (a := eps) (b := 1) (c := 1) (by linarith) rfl rfl wa a ga he.rate le_rfl va rfl rfl 3000 hra (wa.st.temp - g.models.lava.buffer)
  exact ⟨g, _, wa, wb, a, b, 3000, ga, gb, he, va, vb, le_rfl, ⟨rfl, rfl, rfl⟩, rfl, rfl, rfl, rfl, by show (1.4 : ℝ) < 2.8; norm_num, hdrive, hventb, rfl,
    hra, hrb, hsmall, le_rfl, rfl, hheat, hrow⟩
end PyFlowGo
