import Verif.Spec.KinderVent
import Verif.Props.StrongerSupply
import Verif.Props.StrongerConfig
/-
  C126: the easier the lava flows at the vent, the shallower the channel the depth search finds for it.
-/
set_option linter.unusedSectionVars false
namespace PyFlowGo
open Spec

/-- Lava with a smaller yield strength and a smaller viscosity under a larger stress in a channel of the same depth is not slower, if the first lava moves. -/
theorem bingham_easier {d tb tb' mu mu' t0 t0' : ℝ} (hd : 0 < d) (htb : 0 < tb) (hb : tb ≤ tb') (hmu : 0 < mu') (hm : mu' ≤ mu) (h0 : 0 ≤ t0') (ht : t0' ≤ t0)
    (hy : t0 ≤ tb) : binghamVelocity d tb mu t0 ≤ binghamVelocity d tb' mu' t0' := by
  have hmu0 : 0 < mu := hmu.trans_le hm
  have a1 : binghamVelocity d tb mu t0 ≤ binghamVelocity d tb mu t0' := by
    rcases ht.eq_or_lt with e | e
    · rw [e]
    · exact (bingham_strictAnti_yield hd htb hmu0 h0 e hy).le
  have a2 : binghamVelocity d tb mu t0' ≤ binghamVelocity d tb mu' t0' := by
    rcases hm.eq_or_lt with e | e
    · rw [e]
    · by_cases hne : t0' = tb
      · rw [(bingham_eq_zero hd htb hmu0 h0).mpr hne, (bingham_eq_zero hd htb hmu h0).mpr hne]
      · exact (bingham_strictAnti_visc hd htb hmu e h0 hne).le
  exact (a1.trans a2).trans (bingham_mono hd le_rfl htb hb hmu h0 (ht.trans hy))

/-- **C126**, the search. Two depth searches with rates other than zero, of lavas that do not read the strain rate, on the same ascending grid of positive depths. If the second vent is
    easier and the first lava moves in the channel that was found for it, the channel found for the second is not deeper. -/
theorem C126_search (grid : List ℝ) (hgrid : grid ≠ []) (hinc : grid.Pairwise (· ≤ ·)) (hgpos : ∀ d ∈ grid, 0 < d) (l l' : Lava ℝ)
    (hl : StrainIndependent l) (hl' : StrainIndependent l') (w w' : World ℝ) (hr : w.terrain.effusionRateInit ≠ 0) (hr' : w'.terrain.effusionRateInit ≠ 0)
    (h : EasierVent l l' w w') (w1 w1' : World ℝ) (h1 : initEffusionRateOn grid l w = (.ok (), w1)) (h1' : initEffusionRateOn grid l' w' = (.ok (), w1'))
    (hmoves : l.yieldNotCompatible w1.terrain w.st = .ok false) : w1'.terrain.depth ≤ w1.terrain.depth := by
  rw [search_of_rate grid l w hr] at h1
  rw [search_of_rate grid l' w' hr'] at h1'
  obtain ⟨k, v, y, hk, hv, -, hend, rfl⟩ := search_found l hl grid hgrid w w1 h1
  obtain ⟨k', v', y', hk', -, hb', -, rfl⟩ := search_found l' hl' grid hgrid _ w1' h1'
  have eg : ∀ j (h : j < grid.length), grid.getD j 0 = grid[j] := by
    intro j h
    rw [List.getD_eq_getElem?_getD, List.getElem?_eq_getElem h, Option.getD_some]
  have hkk : k' ≤ k := by
    by_contra hlt
    obtain ⟨vj, yj, hj, hlt2⟩ := hb' k (by omega)
    have hd : 0 < grid.getD k 0 := by rw [eg k hk]; exact hgpos _ (List.getElem_mem hk)
    obtain ⟨t0, tb, mu, e1, e2, e3, -, -, -, e7, -⟩ := (meanVelocity_ok_iff _ _ _ _ _).mp hv
    obtain ⟨t0', tb', mu', f1, f2, f3, -, -, -, f7, -⟩ := (meanVelocity_ok_iff _ _ _ _ _).mp hj
    obtain ⟨a1, a2⟩ := h.yields _ _ e1 f1
    obtain ⟨b1, b2⟩ := h.viscosity _ _ e3 f3
    obtain ⟨c1, c2⟩ := h.stress _ _ _ hd e2 f2
    have hy : t0 < tb := by
      unfold Lava.yieldNotCompatible at hmoves
      rw [e1, ok_bind] at hmoves
      dsimp only at hmoves
      rw [e2, ok_bind, pure_ok_iff, ← Bool.not_eq_true, leB_real, not_le] at hmoves
      exact hmoves
    have hvv : v ≤ vj := by
      rw [e7, f7]
      exact bingham_easier hd c1 c2 b1 b2 a1 a2 hy.le
    have hv0 : 0 ≤ v := by
      rw [e7]
      exact bingham_nonneg hd c1 (b1.trans_le b2) (a1.trans a2)
    rcases hend with he | he
    · obtain ⟨i1, i2⟩ := h.width
      have : v * w.terrain.width * grid.getD k 0 ≤ vj * w'.terrain.width * grid.getD k 0 := by
        have : 0 ≤ vj := hv0.trans hvv
        gcongr
      have := h.supply
      linarith
    · omega
  show grid.getD k' 0 ≤ grid.getD k 0
  rw [eg k hk, eg k' hk']
  rcases Nat.lt_or_ge k' k with hlt | hge
  · exact List.pairwise_iff_getElem.mp hinc k' k hk' hk hlt
  · have : k = k' := by omega
    subst this
    exact le_rfl

/-- A kinder vent is an easier one, for sensible parameters without strain rates. -/
theorem C126_kinder_is_easier (g : Integrator ℝ) (l' : Lava ℝ) (hlava : l' = g.models.lava) (w w' : World ℝ) (hg : Sensible g w.terrain w.st.pos)
    (hn : NoStrainRate g.models.lava) (hv : AtVent g w) (hv' : AtVent g w') (h : KinderVent w w') : EasierVent g.models.lava l' w w' := by
  subst hlava
  have fa : Fit g w.terrain w.st.pos w.st := ⟨le_rfl, hv.crystals, hv.hot, hv.room, hv.off, hv.ground⟩
  have fb : Fit g w'.terrain w.st.pos w'.st := ⟨h.place.ge, hv'.crystals, hv'.hot, hv'.room, hv'.off, hv'.ground⟩
  refine ⟨?_, ?_, ?_, ⟨hg.width.le, h.wider⟩, h.supply⟩
  · intro t t' e e'
    obtain ⟨q, k1, k2⟩ := yield_total (g := g) hv'.crystals
    rw [e'] at k1
    obtain rfl := Except.ok.inj k1
    exact ⟨k2, C34_yield_grows _ w'.st w.st hv'.crystals h.fewer h.hotter h.place.symm _ _ e' e⟩
  · intro m m' e e'
    have hmm : m' ≤ m := by
      have fb' : Fit g w.terrain w.st.pos w'.st := ⟨h.place.ge, hv'.crystals, hv'.hot, hv'.room, hv'.off, by rw [h.place]; exact hv.ground⟩
      exact C121_thinner g w.terrain w.terrain w.st.pos hg hn w'.st w.st fb' fa h.place h.hotter h.fewer _ _ e' e
    have fb' : Fit g w.terrain w.st.pos w'.st := ⟨h.place.ge, hv'.crystals, hv'.hot, hv'.room, hv'.off, by rw [h.place]; exact hv.ground⟩
    obtain ⟨m1, k1, k2⟩ := viscosity_total hg fb'
    rw [e'] at k1
    obtain rfl := Except.ok.inj k1
    exact ⟨k2, hmm⟩
  · intro d b b' hd e e'
    unfold Lava.basalStress at e e'
    obtain ⟨y, hy, e⟩ := bind_ok_iff.mp e
    obtain ⟨y', hy', e'⟩ := bind_ok_iff.mp e'
    rw [pure_ok_iff] at e e'
    have hs : w.terrain.slope w.st.pos = .ok y := hy
    have hs' : w'.terrain.slope w.st.pos = .ok y' := by rw [← h.place]; exact hy'
    obtain ⟨s1, s2⟩ := h.steeper y y' hs hs'
    obtain ⟨g1, g2⟩ := h.heavier
    have hrho := density_pos hg (s := w.st) le_rfl
    have hrr : g.models.lava.density w'.st = g.models.lava.density w.st := density_pos_only _ _ _ h.place
    rw [sin_real] at e e'
    rw [hrr] at e'
    dsimp only at e e'
    subst e e'
    constructor
    · positivity
    · have : 0 < w'.terrain.gravity := g1.trans_le g2
      gcongr

/-- **C126** for configuration files. Two configurations with sensible parameters and the same lava (models that do not read the strain rate), with effusion rates other than zero, whose
    runs end normally and show the depths `D` and `D'` of the channel at the vent. If the second vent is kinder (hotter or less crystallised lava, a wider channel, stronger gravity,
    steeper ground, a smaller rate) and the first lava moves in its channel, then `D'` is not larger than `D`. -/
theorem C126_run (n n' : Nat) (env : Env ℝ) (jsonFile jsonFile' folder folder' : String) (p p' : Proc ℝ)
    (d d' : Json ℝ) (hd : lookup p.json (env.canon jsonFile) = some d) (hd' : lookup p'.json (env.canon jsonFile') = some d')
    (hlog : p.log = []) (hlog' : p'.log = []) (pr pr' : Prepared ℝ) (hprep : prepare env d [] = .ok pr) (hprep' : prepare env d' [] = .ok pr')
    (hlava : pr'.integrator.models.lava = pr.integrator.models.lava) (hdx' : 0 < pr'.integrator.dx)
    (hg : Sensible pr.integrator pr.world.terrain pr.world.st.pos) (hn : NoStrainRate pr.integrator.models.lava)
    (hv : AtVent pr.integrator pr.world) (hv' : AtVent pr.integrator pr'.world)
    (hr : pr.world.terrain.effusionRateInit ≠ 0) (hr' : pr'.world.terrain.effusionRateInit ≠ 0) (h : KinderVent pr.world pr'.world)
    (q q' : Proc ℝ) (hrun : run n env jsonFile folder p = some (.ok (), q)) (hrun' : run n' env jsonFile' folder' p' = some (.ok (), q'))
    (D D' : ℝ) (hD : loggedNum q.log pr.world.st.pos "channel_depth" = some D) (hD' : loggedNum q'.log pr'.world.st.pos "channel_depth" = some D')
    (hmoves : pr.integrator.models.lava.yieldNotCompatible { pr.world.terrain with depth := D } pr.world.st = .ok false) : D' ≤ D := by
  obtain ⟨_, _, _, _, _, _, f7, ⟨sz, f8, f8'⟩, _, _⟩ := prepared_facts hprep
  obtain ⟨_, _, _, _, _, _, g7, ⟨sz', g8, g8'⟩, _, _⟩ := prepared_facts hprep'
  obtain ⟨pr1, w1, _, _, hp, hi, hw1, -⟩ := run_depth hd hlog f7 f8 f8' hg.step hrun hD
  obtain ⟨pr1', w1', _, _, hp', hi', hw1', -⟩ := run_depth hd' hlog' g7 g8 g8' hdx' hrun' hD'
  rw [hlog, hprep] at hp
  rw [hlog', hprep'] at hp'
  obtain rfl := Except.ok.inj hp
  obtain rfl := Except.ok.inj hp'
  have hl := noStrain_independent hn
  have ht : w1.terrain = { pr.world.terrain with depth := D } := by
    have hi2 := hi
    rw [search_of_rate _ _ _ hr] at hi2
    obtain ⟨k, v, y, _, _, _, _, e⟩ := search_found _ hl _ grid_nonempty _ _ hi2
    rw [← hw1, e]
  have := C126_search depthGrid grid_nonempty C97_program_depths.2 grid_pos _ _ hl (by rw [hlava]; exact hl) pr.world pr'.world hr hr'
    (C126_kinder_is_easier pr.integrator _ hlava pr.world pr'.world hg hn hv hv' h) w1 w1' hi hi' (by rw [ht]; exact hmoves)
  rwa [hw1, hw1'] at this

end PyFlowGo
