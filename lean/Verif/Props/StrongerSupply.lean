import Verif.Props.StrongerSensible
import Verif.Props.Supply
/-
  C121: a larger effusion rate.
-/
set_option linter.unusedSectionVars false
namespace PyFlowGo
open Spec

theorem sensible_supplied {g : Integrator ℝ} {T : Terrain ℝ} {x0 : ℝ} (h : Sensible g T x0) (q d : ℝ) :
    Sensible g { T with effusionRateInit := q, depth := d } x0 :=
  ⟨h.step, h.gravity, h.width, h.slopes, h.density, h.latent, h.vesicles, h.melt, h.crystals, h.bubbles, h.rate, h.cover, h.crust, h.air, h.molten,
    h.conduction⟩

/-- A run does not change the terrain. -/
theorem loop_terrain {g : Integrator ℝ} {n : Nat} {w w' : World ℝ} (h : runLoop g n w = some (.ok (), w')) : w'.terrain = w.terrain := by
  obtain ⟨_, k, ws, h0, hacc, _, hend⟩ := runLoop_ok h
  have key : ∀ i, i ≤ k → (ws i).terrain = w.terrain := by
    intro i
    induction i with
    | zero => intro _; rw [h0]
    | succ i ih =>
      intro hi
      obtain ⟨A⟩ := acceptedFacts (hacc i (by omega))
      rw [A.terrain_eq, ih (by omega)]
  rcases hend with e | ⟨_, e⟩
  · rw [e]; exact key k le_rfl
  · rw [(C14_rejected_step_moves_nothing g _ _ e).2.2.2.2.2.2.1]; exact key k le_rfl

/-- **C121**, a larger effusion rate. Take a sensible set-up with the models of C121, and let the lava be supplied at a rate `q` and, from the same vent, at a rate
    `q' >= q` (whatever depths the two configurations contain). If both simulations end normally, the lava moves at the vent of the first, and the step is small for the second, then wherever both
    tables show a number the more productive flow is not colder, not more crystallised and not slower, and if it always loses heat it runs at least as far: its table is complete
    wherever the other is. -/
theorem C121_larger_rate (grid : List ℝ) (hgrid : grid ≠ []) (hinc : grid.Pairwise (· ≤ ·)) (hgpos : ∀ d ∈ grid, 0 < d)
    (g : Integrator ℝ) (x0 r : ℝ) (w : World ℝ) (q' d' y' : ℝ) (hg : Sensible g w.terrain x0) (he : Everyday g x0 r) (hv : AtVent g w) (hx : x0 ≤ w.st.pos)
    (hlog : w.log = []) (hit : w.iteration = 0) (hq0 : w.terrain.effusionRateInit ≠ 0) (hq0' : q' ≠ 0) (hq : w.terrain.effusionRateInit ≤ q')
    (hmass : g.massConservation = true → ∀ s : FlowState ℝ, x0 ≤ s.pos → g.models.lava.density w.st ≤ g.models.lava.density s)
    (n n' : Nat) (a b : World ℝ) (hb : simulateOn grid n g w = some (.ok (), b)) (ha : simulateOn grid n' g (w.supplied q' d' y') = some (.ok (), a))
    (hvent : g.models.lava.yieldNotCompatible b.terrain w.st = .ok false)
    (hsmall : StepIsSmall g a.terrain.depth (w.st.temp - g.models.lava.buffer) r a.log) :
    b.terrain.depth ≤ a.terrain.depth ∧
    (∀ x T T', BothShow a.log b.log "core_temperature" x T T' → T' ≤ T) ∧
    (∀ x phi phi', BothShow a.log b.log "crystal_fraction" x phi phi' → phi ≤ phi') ∧
    (∀ x v v', BothShow a.log b.log "mean_velocity" x v v' → v' ≤ v) ∧
    (w.finished = false → (∀ x q, loggedNum a.log x "heat_budget" = some q → 0 < q) →
      b.st.pos ≤ a.st.pos ∧ ∀ x, CompleteRow b.log x → CompleteRow a.log x) := by
  have hl := noStrain_independent he.strain
  unfold simulateOn at ha hb
  cases hb1 : initEffusionRateOn grid g.models.lava w with
  | mk rb wb =>
  cases ha1 : initEffusionRateOn grid g.models.lava (w.supplied q' d' y') with
  | mk ra wa =>
  rw [hb1] at hb
  rw [ha1] at ha
  cases rb with
  | error e => simp at hb
  | ok u =>
  cases ra with
  | error e => simp at ha
  | ok u' =>
  dsimp only at ha hb
  have hdle := C97_larger_rate grid hgrid hinc g.models.lava hl w hq0 q' d' y' hq0' hq wb wa hb1 ha1
  have kb := hb1
  have ka := ha1
  rw [search_of_rate grid _ w hq0] at kb
  rw [search_of_rate grid _ (w.supplied q' d' y') hq0'] at ka
  obtain ⟨i, vb, zb, hi, hvb, _, _, ewb⟩ := search_found _ hl grid hgrid w wb kb
  obtain ⟨j, va, za, hj, hva, _, _, ewa⟩ := search_found _ hl grid hgrid _ wa ka
  have gpos : ∀ i, i < grid.length → 0 < grid.getD i 0 := by
    intro i hi
    rw [List.getD_eq_getElem?_getD, List.getElem?_eq_getElem hi, Option.getD_some]
    exact hgpos _ (List.getElem_mem hi)
  have db := gpos i hi
  have da := gpos j hj
  have tb : wb.terrain = { w.terrain with depth := grid.getD i 0 } := by rw [ewb]
  have ta : wa.terrain = { w.terrain with effusionRateInit := q', depth := grid.getD j 0 } := by rw [ewa]; rfl
  have sb : wb.st = { w.st with strain := zb } := by rw [ewb]
  have sa : wa.st = { w.st with strain := za } := by rw [ewa]; rfl
  have fb : wb.fluxRate = some (vb * w.terrain.width * grid.getD i 0 * g.models.lava.density w.st) := by rw [ewb]
  have fa : wa.fluxRate = some (va * w.terrain.width * grid.getD j 0 * g.models.lava.density w.st) := by
    rw [ewa]
    show some (va * w.terrain.width * grid.getD j 0 * g.models.lava.density { w.st with strain := y' }) = _
    rw [density_pos_only g.models.lava { w.st with strain := y' } w.st rfl]
  have gb : Sensible g wb.terrain x0 := by rw [tb]; exact sensible_supplied hg w.terrain.effusionRateInit _
  have ga : Sensible g wa.terrain x0 := by rw [ta]; exact sensible_supplied hg _ _
  have ventOf : ∀ (W : World ℝ) (z d q : ℝ), W.st = { w.st with strain := z } → W.terrain = { w.terrain with effusionRateInit := q, depth := d } → 0 < d →
      AtVent g W := by
    intro W z d q e1 e2 hd
    refine ⟨by rw [e1]; exact hv.crystals, by rw [e1]; exact hv.hot, ?_, ?_, by rw [e2]; exact hd, by rw [e1, e2]; exact hv.ground⟩
    · rw [e1]; exact (notCompatible_strain _ _ _).trans hv.room
    · rw [e1]; exact fun k => hv.off ((atPacking_strain _ w.st z).mp k)
  have vb' := ventOf wb zb _ w.terrain.effusionRateInit sb tb db
  have va' := ventOf wa za _ q' sa ta da
  have hla : wa.log = [] := by rw [ewa]; exact hlog
  have hlb : wb.log = [] := by rw [ewb]; exact hlog
  have hia : wa.iteration = 0 := by rw [ewa]; exact hit
  have hib : wb.iteration = 0 := by rw [ewb]; exact hit
  have dep : ∀ (W W' : World ℝ) (n : Nat), runLoop g n W = some (.ok (), W') → W'.terrain = W.terrain := fun W W' n h => loop_terrain h
  have hdrive : DrivesHarder g.models.lava wa.terrain wb.terrain fun x _ _ => x0 ≤ x := by
    obtain ⟨c1, _, _⟩ := C121_channels g.models.lava wb.terrain (fun x _ _ => x0 ≤ x) (by rw [tb]; exact db)
    obtain ⟨p1, p2, p3⟩ := c1 wa.terrain.depth hdle
    refine ⟨p1, p2, fun s b hs h1 h2 => ?_⟩
    obtain ⟨c, e1, e2⟩ := p3 s b hs h1 h2
    refine ⟨c, ?_, e2⟩
    rw [← e1, ta, tb]
    rfl
  have hventb : g.models.lava.yieldNotCompatible wb.terrain wb.st = .ok false := by
    rw [dep _ _ _ hb] at hvent
    rw [← hvent, sb]
    exact congrArg₂ (fun (a b : Except Err ℝ) => a.bind fun x => b.bind fun y => pure (leB y x)) (yield_strain g.models.lava.yld w.st zb)
      (basal_strain g.models.lava wb.terrain w.st zb)
  have hm : g.massConservation = true → ∃ c, MassFrom g wa x0 c ∧ MassFrom g wb x0 c := by
    intro h
    refine ⟨g.models.lava.density w.st, ⟨density_pos hg hx, hmass h, fun v y h1 => ?_⟩, density_pos hg hx, hmass h, fun v y h1 => ?_⟩
    · rw [sa, ta, meanVelocity_strain _ hl] at h1
      have hva : g.models.lava.meanVelocity { w.terrain with effusionRateInit := q', depth := grid.getD j 0 } { w.st with strain := y' } = .ok (va, za) := hva
      rw [meanVelocity_strain _ hl, h1, Except.ok.injEq, Prod.mk.injEq] at hva
      rw [fa, hva.1, ta]
      congr 1
      ring
    · rw [sb, tb, meanVelocity_strain _ hl, hvb, Except.ok.injEq, Prod.mk.injEq] at h1
      rw [fb, h1.1, tb]
      congr 1
      ring
  have hsm : StepIsSmall g wa.terrain.depth (wa.st.temp - g.models.lava.buffer) r a.log := by
    rw [dep _ _ _ ha] at hsmall
    rw [sa]
    exact hsmall
  obtain ⟨c1, c2, c3, c4⟩ := C121_sensible g x0 r n' n wa wb a b ga gb he va' vb' (by rw [sa]; exact hx) (by rw [sa, sb]; exact ⟨rfl, rfl, rfl⟩) hla hlb hia hib hdrive
    hventb hm ha hb hsm
  refine ⟨by rw [dep _ _ _ ha, dep _ _ _ hb]; exact hdle, c1, c2, c3, fun hf hq => c4 (by rw [ta, tb]) (by rw [ewa]; exact hf) hq⟩

end PyFlowGo
