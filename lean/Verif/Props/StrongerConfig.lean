import Verif.Props.StrongerSupply
import Verif.Props.SupplyConfig
import Verif.Props.SupplyExample
/-
  C121 for two configuration files that differ in the effusion rate.
-/
set_option linter.unusedSectionVars false
namespace PyFlowGo
open Spec

/-- **C121** on configuration files. Two configurations that differ in the effusion rate (and perhaps in the depth, which the rate overrides), `r <= r'`, with sensible parameters and
    the models of C121. Both runs end normally and show the depths `D` and `D'` at the vent; at the depth `D` the lava's yield strength is below the basal stress; the step is small for
    the second run. Then `D <= D'`, and wherever both runs recorded a number the one with the larger rate is not colder, not more crystallised and not slower; if it always loses
    heat it goes at least as far. -/
theorem C121_run (n n' : Nat) (env : Env ℝ) (jsonFile folder : String) (p p' : Proc ℝ)
    (d d' : Json ℝ) (hd : lookup p.json (env.canon jsonFile) = some d) (hd' : lookup p'.json (env.canon jsonFile) = some d')
    (hlog : p.log = []) (hlog' : p'.log = [])
    (c : Choice) (hc : Selects d c) (h : SameButSupply env c d d') (hs : SameSwitch d d')
    (r r' : ℝ) (hr : RateIs env d r) (hr' : RateIs env d' r') (hr0 : r ≠ 0) (hr0' : r' ≠ 0) (hle : r ≤ r')
    (pr : Prepared ℝ) (hprep : prepare env d [] = .ok pr)
    (hg : Sensible pr.integrator pr.world.terrain pr.world.st.pos) (hv : AtVent pr.integrator pr.world) (k : ℝ) (he : Everyday pr.integrator pr.world.st.pos k)
    (hmass : pr.integrator.massConservation = true → ∀ s : FlowState ℝ, pr.world.st.pos ≤ s.pos →
      pr.integrator.models.lava.density pr.world.st ≤ pr.integrator.models.lava.density s)
    (q q' : Proc ℝ) (hrun : run n env jsonFile folder p = some (.ok (), q)) (hrun' : run n' env jsonFile folder p' = some (.ok (), q')) (D D' : ℝ)
    (hD : loggedNum q.log pr.world.st.pos "channel_depth" = some D) (hD' : loggedNum q'.log pr.world.st.pos "channel_depth" = some D')
    (hvent : pr.integrator.models.lava.yieldNotCompatible { pr.world.terrain with depth := D } pr.world.st = .ok false)
    (hsmall : StepIsSmall pr.integrator D' (pr.world.st.temp - pr.integrator.models.lava.buffer) k q'.log) :
    D ≤ D' ∧
    (∀ x T T', BothShow q'.log q.log "core_temperature" x T T' → T' ≤ T) ∧
    (∀ x phi phi', BothShow q'.log q.log "crystal_fraction" x phi phi' → phi ≤ phi') ∧
    (∀ x v v', BothShow q'.log q.log "mean_velocity" x v v' → v' ≤ v) ∧
    ((∀ x q, loggedNum q'.log x "heat_budget" = some q → 0 < q) → ∀ x, CompleteRow q.log x → CompleteRow q'.log x) := by
  obtain ⟨_, _, _, f4, f5, f6, f7, ⟨sz, f8, f8'⟩, _, _⟩ := prepared_facts hprep
  obtain ⟨v0, hv0, hx0v⟩ := id f7
  have f7' : NumberAt env d' "lava_state" "position" pr.world.st.pos :=
    ⟨v0, (h.entry ("lava_state", "position") (by simp [usedEntries, channelEntries]) (by decide) v0).mp hv0, hx0v⟩
  have hsz' := (h.top "step_size" (by simp [usedTop]) (by decide) sz).mp f8
  obtain ⟨pr1, w1, w, t, hp, hi, hw1, hDne, hsim, hql, hwv, hqr⟩ := run_depth hd hlog f7 f8 f8' hg.step hrun hD
  obtain ⟨pr', w1', w', t', hp', hi', hw1', _, hsim', hql', hwv', hqr'⟩ := run_depth hd' hlog' f7' hsz' f8' hg.step hrun' hD'
  rw [hlog, hprep] at hp
  cases hp
  rw [hlog'] at hp'
  obtain ⟨Dc, x, e1, e2, _⟩ := supply_prepared h hs hc hprep hp'
  obtain ⟨g1, _⟩ := prepared_facts hprep
  obtain ⟨g1', _⟩ := prepared_facts hp'
  have er := rate_unique g1 hr
  have er' := rate_unique g1' hr'
  rw [e1, e2, er'] at hsim'
  have ht : ∀ (W W1 W2 : World ℝ) m, initEffusionRateOn depthGrid pr.integrator.models.lava W = (.ok (), W1) →
      simulateOn depthGrid m pr.integrator W = some (.ok (), W2) → W2.terrain = W1.terrain := by
    intro W W1 W2 m h1 h2
    unfold simulateOn at h2
    rw [h1] at h2
    exact loop_terrain h2
  have hbt := ht _ _ _ _ hi hsim
  rw [e1, e2, er'] at hi'
  have hat := ht _ _ _ _ hi' hsim'
  have hl := noStrain_independent he.strain
  have hbt2 : w.terrain = { pr.world.terrain with depth := D } := by
    rw [hbt, ← hw1]
    have hi2 := hi
    rw [search_of_rate depthGrid _ pr.world (by rw [er]; exact hr0)] at hi2
    obtain ⟨_, _, _, _, _, _, _, ewb⟩ := search_found _ hl depthGrid grid_nonempty _ _ hi2
    rw [ewb]
  obtain ⟨c0, c1, c2, c3, c4⟩ := C121_larger_rate depthGrid grid_nonempty C97_program_depths.2 grid_pos pr.integrator pr.world.st.pos k pr.world r' Dc x hg he hv le_rfl f4 f5
    (by rw [er]; exact hr0) hr0' (by rw [er]; exact hle) hmass n n' w' w hsim hsim' (by rw [hbt2]; exact hvent)
    (by rw [hat, hw1', ← hql']; exact hsmall)
  rw [hbt, hat, hw1, hw1'] at c0
  rw [hql, hql']
  exact ⟨c0, c1, c2, c3, fun hq => (c4 f6 hq).2⟩

end PyFlowGo
