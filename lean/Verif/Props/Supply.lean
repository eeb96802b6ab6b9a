import Verif.Proofs.Mirror
import Verif.Props.Cutoff
import Verif.Props.DepthSearch
import Verif.Props.Euler
import Verif.Props.Plot
/-
  C97: what the configured effusion rate and the configured depth determine.
-/
set_option linter.unusedSectionVars false
namespace PyFlowGo
open Spec

/-- How a simulation ended and the log it left. -/
def outcome {α : Type} (o : Option (Except Err Unit × World α)) : Option (Except Err Unit × Log (Cell α)) :=
  o.map fun q => (q.1, q.2.log)

/-- The world with another configured effusion rate, another depth of the channel and another strain rate. -/
def World.supplied {α : Type} (w : World α) (r d x : α) : World α :=
  { w with terrain := { w.terrain with effusionRateInit := r, depth := d }, st := { w.st with strain := x } }

section
variable {α : Type} [Add α] [Sub α] [Mul α] [Neg α] [OfScientific α] [PyNum α]

/-- After the search nothing looks at the configured effusion rate. -/
theorem mirror_rate (g : Integrator α) (r : α) :
    Mirror g g fun w => { w with terrain := { w.terrain with effusionRateInit := r } } where
  dx := rfl
  mass := rfl
  air := rfl
  fluxes := rfl
  latent := rfl
  solid := rfl
  vel := by
    intro w
    unfold meanVelocityM
    show (match g.models.lava.meanVelocity w.terrain w.st with | .ok (v, strain) => _ | .error e => _) = _
    cases g.models.lava.meanVelocity w.terrain w.st <;> rfl
  crust _ := rfl
  cover _ _ := rfl
  molten _ := rfl
  vesicle _ := rfl
  density _ := rfl
  bulk _ := rfl
  yield_ _ := rfl
  basal _ := rfl
  compat _ := rfl
  rate _ := rfl
  slope _ := rfl
  depth _ := rfl
  width _ := rfl
  rates _ := rfl
  flux _ _ := rfl
  iter _ := rfl
  temp _ := rfl
  crystal _ := rfl
  strain _ := rfl
  fin _ := rfl
  length _ := rfl
  logs _ _ _ _ := rfl
  setRate _ _ := rfl
  setState _ _ _ := rfl
  setTime _ _ := rfl
  setStrain _ _ := rfl
  finish _ := rfl

/-- Without mass conservation nothing looks at the mass flux. -/
theorem mirror_flux (g : Integrator α) (hm : g.massConservation = false) (f : Option α) : Mirror g g fun w => { w with fluxRate := f } where
  dx := rfl
  mass := rfl
  air := rfl
  fluxes := rfl
  latent := rfl
  solid := rfl
  vel := by
    intro w
    unfold meanVelocityM
    show (match g.models.lava.meanVelocity w.terrain w.st with | .ok (v, strain) => _ | .error e => _) = _
    cases g.models.lava.meanVelocity w.terrain w.st <;> rfl
  crust _ := rfl
  cover _ _ := rfl
  molten _ := rfl
  vesicle _ := rfl
  density _ := rfl
  bulk _ := rfl
  yield_ _ := rfl
  basal _ := rfl
  compat _ := rfl
  rate _ := rfl
  slope _ := rfl
  depth _ := rfl
  width _ := rfl
  rates _ := rfl
  flux h := by rw [hm] at h; cases h
  iter _ := rfl
  temp _ := rfl
  crystal _ := rfl
  strain _ := rfl
  fin _ := rfl
  length _ := rfl
  logs _ _ _ _ := rfl
  setRate _ _ := rfl
  setState _ _ _ := rfl
  setTime _ _ := rfl
  setStrain _ _ := rfl
  finish _ := rfl

theorem loop_rate (g : Integrator α) (r : α) (n : Nat) (w : World α) :
    outcome (runLoop g n { w with terrain := { w.terrain with effusionRateInit := r } }) = outcome (runLoop g n w) := by
  have := (mirror_rate g r).loop n w
  dsimp only at this
  rw [this]
  cases runLoop g n w <;> rfl

theorem loop_flux (g : Integrator α) (hm : g.massConservation = false) (f : Option α) (n : Nat) (w : World α) :
    outcome (runLoop g n { w with fluxRate := f }) = outcome (runLoop g n w) := by
  have := (mirror_flux g hm f).loop n w
  rw [this]
  cases runLoop g n w <;> rfl

end

/-- The strain rate and the effusion rate a loop starts with have no effect when the viscosity does not depend on the strain rate. -/
theorem loop_start (g : Integrator ℝ) (hl : StrainIndependent g.models.lava) (n : Nat) (w : World ℝ) (hi : w.iteration = 0) (x e : ℝ) :
    outcome (runLoop g n { w with st := { w.st with strain := x }, effusionRate := e }) = outcome (runLoop g n w) := by
  cases n with
  | zero =>
    unfold runLoop
    dsimp only
    cases w.finished <;> rfl
  | succ n =>
    unfold runLoop
    dsimp only
    by_cases hf : w.finished = true
    · rw [if_pos hf, if_pos hf]; rfl
    · rw [if_neg hf, if_neg hf]
      have hv : g.models.lava.meanVelocity w.terrain { w.st with strain := x } = g.models.lava.meanVelocity w.terrain w.st :=
        meanVelocity_strain _ hl _ _ _
      unfold singleStep
      rw [PyM.bind_apply, PyM.bind_apply]
      unfold meanVelocityM
      dsimp only
      rw [hv]
      cases g.models.lava.meanVelocity w.terrain w.st with
      | error err => rfl
      | ok q =>
        obtain ⟨v, y⟩ := q
        dsimp only
        cases leB v 0.0 with
        | true =>
          show outcome (runLoop g n _) = outcome (runLoop g n _)
          rw [runLoop_finished _ _ _ rfl, runLoop_finished _ _ _ rfl]
          rfl
        | false =>
          rw [if_neg (by decide), PyM.bind_apply, PyM.bind_apply]
          have e1 : setEffusionRate v { w with st := { w.st with strain := y }, effusionRate := e } =
              setEffusionRate v { w with st := { w.st with strain := y } } := by
            unfold setEffusionRate
            rw [PyM.modify_apply, PyM.modify_apply]
            dsimp only
            rw [hi]
            rfl
          dsimp only at e1
          unfold stepCompute
          rw [PyM.bind_apply, PyM.bind_apply, e1]

/-- The loop after the search: only the depth counts. -/
theorem loop_supply (g : Integrator ℝ) (hl : StrainIndependent g.models.lava) (n : Nat) (w : World ℝ) (hi : w.iteration = 0) (r x e : ℝ)
    (f : Option ℝ) (hf : g.massConservation = true → f = w.fluxRate) :
    outcome (runLoop g n { w with terrain := { w.terrain with effusionRateInit := r }, st := { w.st with strain := x }, effusionRate := e, fluxRate := f }) =
      outcome (runLoop g n w) := by
  have h1 := loop_rate g r n { w with st := { w.st with strain := x }, effusionRate := e, fluxRate := f }
  have h2 : outcome (runLoop g n { w with st := { w.st with strain := x }, effusionRate := e, fluxRate := f }) =
      outcome (runLoop g n { w with st := { w.st with strain := x }, effusionRate := e }) := by
    cases hm : g.massConservation with
    | true => rw [hf hm]
    | false => exact loop_flux g hm f n { w with st := { w.st with strain := x }, effusionRate := e }
  exact h1.trans (h2.trans (loop_start g hl n w hi x e))

/-- A search over at least one depth does not look at the depth before it or at the strain rate before it. -/
theorem search_supply (l : Lava ℝ) (hl : StrainIndependent l) (ds : List ℝ) (hds : ds ≠ []) (w : World ℝ) (d x : ℝ) :
    (∃ w1, depthSearch l ds w = (.ok (), w1) ∧ depthSearch l ds (w.supplied w.terrain.effusionRateInit d x) = (.ok (), w1)) ∨
    ∃ e w1 w2, depthSearch l ds w = (.error e, w1) ∧ depthSearch l ds (w.supplied w.terrain.effusionRateInit d x) = (.error e, w2) ∧
      w1.log = w.log ∧ w2.log = w.log := by
  have key : ∀ (ds : List ℝ) (w : World ℝ) (r : Except Err Unit) w1, depthSearch l ds w = (r, w1) → w1.log = w.log := by
    intro ds w r w1 h
    exact depthSearch_keeps l ds (fun v => v.log = w.log) (fun _ _ _ _ _ h => h) w r w1 rfl h
  cases ds with
  | nil => exact absurd rfl hds
  | cons a rest =>
    have hv : l.meanVelocity { w.terrain with depth := a } { w.st with strain := x } = l.meanVelocity { w.terrain with depth := a } w.st :=
      meanVelocity_strain _ hl _ _ _
    cases hmv : l.meanVelocity { w.terrain with depth := a } w.st with
    | error e =>
      right
      have h1 : depthSearch l (a :: rest) w = (.error e, { w with terrain := { w.terrain with depth := a } }) := by
        unfold depthSearch
        rw [PyM.bind_of_ok (PyM.modify_apply _ _), PyM.bind_of_error]
        unfold meanVelocityM
        dsimp only
        rw [hmv]
      have h2 : depthSearch l (a :: rest) (w.supplied w.terrain.effusionRateInit d x) =
          (.error e, { w with terrain := { w.terrain with depth := a }, st := { w.st with strain := x } }) := by
        unfold depthSearch
        rw [PyM.bind_of_ok (PyM.modify_apply _ _), PyM.bind_of_error]
        unfold meanVelocityM World.supplied
        dsimp only
        rw [hv, hmv]
      exact ⟨e, _, _, h1, h2, rfl, rfl⟩
    | ok q =>
      obtain ⟨v, y⟩ := q
      have e1 : depthSearch l (a :: rest) (w.supplied w.terrain.effusionRateInit d x) = depthSearch l (a :: rest) w := by
        unfold depthSearch
        rw [PyM.bind_of_ok (PyM.modify_apply _ _), PyM.bind_of_ok (PyM.modify_apply _ _)]
        rw [PyM.bind_apply, PyM.bind_apply]
        unfold meanVelocityM World.supplied
        dsimp only
        rw [hv, hmv]
      cases h : depthSearch l (a :: rest) w with
      | mk r w1 =>
        cases r with
        | ok _ => exact .inl ⟨w1, rfl, e1.trans h⟩
        | error e => exact .inr ⟨e, w1, w1, rfl, e1.trans h, key _ _ _ _ h, key _ _ _ _ h⟩

/-- **C97**, the configured depth. With an effusion rate other than zero the configured depth (and the strain rate computed from it)
    has no effect on the outcome and the log. -/
theorem C97_configured_depth (grid : List ℝ) (hgrid : grid ≠ []) (n : Nat) (g : Integrator ℝ) (hl : StrainIndependent g.models.lava)
    (w : World ℝ) (hr : w.terrain.effusionRateInit ≠ 0) (d x : ℝ) :
    outcome (simulateOn grid n g (w.supplied w.terrain.effusionRateInit d x)) = outcome (simulateOn grid n g w) := by
  have hb : ¬ (eqB w.terrain.effusionRateInit 0.0) = true := by
    rw [eqB_real]; intro e; apply hr; rw [e]; norm_num
  have h1 : initEffusionRateOn grid g.models.lava w = depthSearch g.models.lava grid w := by
    unfold initEffusionRateOn
    rw [PyM.bind_of_ok (PyM.get_apply _), if_neg hb]
  have h2 : initEffusionRateOn grid g.models.lava (w.supplied w.terrain.effusionRateInit d x) =
      depthSearch g.models.lava grid (w.supplied w.terrain.effusionRateInit d x) := by
    unfold initEffusionRateOn
    rw [PyM.bind_of_ok (PyM.get_apply _), if_neg (by exact hb)]
  unfold simulateOn
  rw [h1, h2]
  rcases search_supply g.models.lava hl grid hgrid w d x with ⟨w1, e1, e2⟩ | ⟨e, w1, w2, e1, e2, l1, l2⟩
  · rw [e1, e2]
  · rw [e1, e2]
    show some (_, _) = some (_, _)
    rw [l1, l2]

/-- What a successful search found, when the viscosity does not depend on the strain rate. -/
theorem search_found (l : Lava ℝ) (hl : StrainIndependent l) (ds : List ℝ) (hds : ds ≠ []) (w w1 : World ℝ)
    (h : depthSearch l ds w = (.ok (), w1)) :
    ∃ (k : Nat) (v y : ℝ), k < ds.length ∧ l.meanVelocity { w.terrain with depth := ds.getD k 0 } w.st = .ok (v, y) ∧
      (∀ j, j < k → ∃ vj yj, l.meanVelocity { w.terrain with depth := ds.getD j 0 } w.st = .ok (vj, yj) ∧
        vj * w.terrain.width * ds.getD j 0 < w.terrain.effusionRateInit) ∧
      (w.terrain.effusionRateInit ≤ v * w.terrain.width * ds.getD k 0 ∨ k + 1 = ds.length) ∧
      w1 = { w with terrain := { w.terrain with depth := ds.getD k 0 }, st := { w.st with strain := y },
                    effusionRate := v * w.terrain.width * ds.getD k 0,
                    fluxRate := some (v * w.terrain.width * ds.getD k 0 * l.density w.st) } := by
  obtain ⟨k, xs, vs, h1, _, h3, h4, h5, h6⟩ := depthSearch_ok l ds w w1 h hds
  have h3' : ∀ j, j ≤ k → l.meanVelocity { w.terrain with depth := ds.getD j 0 } w.st = .ok (vs j, xs (j + 1)) := by
    intro j hj
    have := h3 j hj
    rwa [meanVelocity_strain l hl] at this
  exact ⟨k, vs k, xs (k + 1), h1, h3' k le_rfl, fun j hj => ⟨vs j, xs (j + 1), h3' j (by omega), h4 j hj⟩, h5, h6⟩

theorem search_of_rate (grid : List ℝ) (l : Lava ℝ) (w : World ℝ) (hr : w.terrain.effusionRateInit ≠ 0) :
    initEffusionRateOn grid l w = depthSearch l grid w := by
  have hb : ¬ (eqB w.terrain.effusionRateInit 0.0) = true := by
    rw [eqB_real]; intro e; apply hr; rw [e]; norm_num
  unfold initEffusionRateOn
  rw [PyM.bind_of_ok (PyM.get_apply _), if_neg hb]

/-- **C97**, a larger rate. The depth found for a larger effusion rate is not smaller. -/
theorem C97_larger_rate (grid : List ℝ) (hgrid : grid ≠ []) (hs : grid.Pairwise (· ≤ ·)) (l : Lava ℝ) (hl : StrainIndependent l)
    (w : World ℝ) (hr : w.terrain.effusionRateInit ≠ 0) (r' d' x' : ℝ) (hr' : r' ≠ 0) (hle : w.terrain.effusionRateInit ≤ r')
    (w1 w2 : World ℝ) (h1 : initEffusionRateOn grid l w = (.ok (), w1))
    (h2 : initEffusionRateOn grid l (w.supplied r' d' x') = (.ok (), w2)) : w1.terrain.depth ≤ w2.terrain.depth := by
  rw [search_of_rate grid l w hr] at h1
  rw [search_of_rate grid l (w.supplied r' d' x') hr'] at h2
  obtain ⟨k, v, y, hk, hv, hb, hend, rfl⟩ := search_found l hl grid hgrid w w1 h1
  obtain ⟨k', v', y', hk', hv', hb', hend', rfl⟩ := search_found l hl grid hgrid _ w2 h2
  have hv'' : l.meanVelocity { w.terrain with depth := grid.getD k' 0 } w.st = .ok (v', y') := by
    rw [← meanVelocity_strain l hl _ _ x']
    exact hv'
  have hkk : k ≤ k' := by
    by_contra hlt
    obtain ⟨vj, yj, hj, hlt2⟩ := hb k' (by omega)
    rw [hv''] at hj
    cases hj
    rcases hend' with he | he
    · have : r' ≤ v' * w.terrain.width * grid.getD k' 0 := he
      linarith
    · omega
  show grid.getD k 0 ≤ grid.getD k' 0
  have eg : ∀ j (h : j < grid.length), grid.getD j 0 = grid[j] := by
    intro j h
    rw [List.getD_eq_getElem?_getD, List.getElem?_eq_getElem h, Option.getD_some]
  rw [eg k hk, eg k' hk']
  rcases Nat.lt_or_ge k k' with hlt | hge
  · exact List.pairwise_iff_getElem.mp hs k k' hk hk' hlt
  · have : k = k' := by omega
    subst this
    exact le_rfl

/-- **C97**, equal depths. Two effusion rates for which the same depth is found lead to the same outcome and the same log. -/
theorem C97_same_depth (grid : List ℝ) (hgrid : grid ≠ []) (n : Nat) (g : Integrator ℝ) (hl : StrainIndependent g.models.lava)
    (w : World ℝ) (hr : w.terrain.effusionRateInit ≠ 0) (r' d' x' : ℝ) (hr' : r' ≠ 0)
    (w1 w2 : World ℝ) (h1 : initEffusionRateOn grid g.models.lava w = (.ok (), w1))
    (h2 : initEffusionRateOn grid g.models.lava (w.supplied r' d' x') = (.ok (), w2)) (hd : w1.terrain.depth = w2.terrain.depth) :
    outcome (simulateOn grid n g (w.supplied r' d' x')) = outcome (simulateOn grid n g w) := by
  have e1 := h1
  have e2 := h2
  rw [search_of_rate grid _ w hr] at h1
  rw [search_of_rate grid _ (w.supplied r' d' x') hr'] at h2
  obtain ⟨k, v, y, hk, hv, hb, hend, rfl⟩ := search_found _ hl grid hgrid w w1 h1
  obtain ⟨k', v', y', hk', hv', hb', hend', rfl⟩ := search_found _ hl grid hgrid _ w2 h2
  have hD : grid.getD k 0 = grid.getD k' 0 := hd
  have hv'' : g.models.lava.meanVelocity { w.terrain with depth := grid.getD k 0 } w.st = .ok (v', y') := by
    rw [hD, ← meanVelocity_strain _ hl _ _ x']
    exact hv'
  rw [hv] at hv''
  cases hv''
  unfold simulateOn
  rw [e1, e2]
  dsimp only
  have hden : g.models.lava.density { w.st with strain := x' } = g.models.lava.density w.st := density_strain _ _ _
  have := loop_rate g r' n { w with terrain := { w.terrain with depth := grid.getD k 0 }, st := { w.st with strain := y }, effusionRate := v * w.terrain.width * grid.getD k 0, fluxRate := some (v * w.terrain.width * grid.getD k 0 * g.models.lava.density w.st) }
  rw [← this]
  unfold World.supplied
  dsimp only
  rw [hden, ← hD]

/-- **C97**, no rate. With the depth that is found for an effusion rate as the configured depth, and no effusion rate, the outcome and
    the log are the same (without mass conservation). -/
theorem C97_zero_rate (grid : List ℝ) (hgrid : grid ≠ []) (n : Nat) (g : Integrator ℝ) (hm : g.massConservation = false)
    (hl : StrainIndependent g.models.lava) (w : World ℝ) (hi : w.iteration = 0) (hr : w.terrain.effusionRateInit ≠ 0) (x' : ℝ)
    (w1 : World ℝ) (h1 : initEffusionRateOn grid g.models.lava w = (.ok (), w1)) :
    outcome (simulateOn grid n g (w.supplied 0 w1.terrain.depth x')) = outcome (simulateOn grid n g w) := by
  have e1 := h1
  rw [search_of_rate grid _ w hr] at h1
  obtain ⟨k, v, y, hk, hv, hb, hend, rfl⟩ := search_found _ hl grid hgrid w w1 h1
  have e2 : initEffusionRateOn grid g.models.lava (w.supplied 0 (grid.getD k 0) x') = (.ok (), w.supplied 0 (grid.getD k 0) x') := by
    unfold initEffusionRateOn
    rw [PyM.bind_of_ok (PyM.get_apply _), if_pos]
    · rfl
    · rw [eqB_real]; unfold World.supplied; norm_num
  unfold simulateOn
  rw [e1]
  dsimp only
  rw [e2]
  dsimp only
  exact loop_supply g hl n { w with terrain := { w.terrain with depth := grid.getD k 0 }, st := { w.st with strain := y }, effusionRate := v * w.terrain.width * grid.getD k 0, fluxRate := some (v * w.terrain.width * grid.getD k 0 * g.models.lava.density w.st) } hi 0 x' w.effusionRate w.fluxRate
    (fun h => by rw [hm] at h; cases h)

theorem depth_not_flux (fs : List (Flux ℝ)) : "channel_depth" ∉ fluxColumns fs := by
  induction fs with
  | nil => simp [fluxColumns]
  | cons f rest ih =>
    simp only [fluxColumns, List.mem_append, List.mem_cons, not_or]
    cases f <;> simp [Flux.columns, Flux.logName, ih]

/-- The depth in the row of the vent is that of the channel. -/
theorem shown_depth (g : Integrator ℝ) (hdx : 0 < g.dx) (n : Nat) (w w' : World ℝ) (hw : w.log = [])
    (h : runLoop g n w = some (.ok (), w')) (D : ℝ) (hD : loggedNum w'.log w.st.pos "channel_depth" = some D) : D = w.terrain.depth ∧ D ≠ 0 := by
  obtain ⟨k, ws, h0, hacc, _, hlen, hfinal⟩ := C63_rows_are_final_end g hdx n w w' hw h
  rcases Nat.eq_zero_or_pos k with rfl | hk
  · exfalso
    rcases hlen with hlen | ⟨hlen, r, hr, hkeys⟩
    · rw [List.length_eq_zero_iff.mp hlen] at hD
      cases hD
    · obtain ⟨r', hr'⟩ := List.length_eq_one_iff.mp hlen
      rw [hr'] at hr hD
      cases hr
      unfold loggedNum cellAt at hD
      have hno : r.get? "channel_depth" = none := by
        refine get?_none_of (fun k hk => (hkeys k).mp hk) fun hm => ?_
        unfold partColumns at hm
        have := depth_not_flux g.models.fluxes
        simp_all
      cases hf : List.find? (fun r => r.atPosition (Cell.num w.st.pos)) [r] with
      | none => rw [hf] at hD; cases hD
      | some q =>
        have : q = r := by
          have := List.mem_of_find?_eq_some hf
          simpa using this
        subst this
        rw [hf, Option.bind_some, hno] at hD
        cases hD
  · obtain ⟨r, _, hshow, _⟩ := accepted_row (hacc 0 hk)
    have := hshow.channel_depth
    unfold loggedNum at this hD
    rw [← hfinal 0 hk, h0, hD] at this
    have e := Option.some.inj this
    obtain ⟨A⟩ := acceptedFacts (hacc 0 hk)
    refine ⟨e, ?_⟩
    rw [e, ← h0]
    exact A.depth_ne

end PyFlowGo
