import Verif.Proofs.StepReal
import Verif.Props.Velocity
import Verif.Spec.DepthSpec
/-
  C25-C27: the initial depth search.
-/
namespace PyFlowGo
open Spec

/-- What a successful search over a list of depths did. -/
theorem depthSearch_ok (l : Lava ℝ) : ∀ (ds : List ℝ) (w w' : World ℝ),
    depthSearch l ds w = (.ok (), w') → ds ≠ [] →
    ∃ (k : Nat) (xs vs : Nat → ℝ), k < ds.length ∧ xs 0 = w.st.strain ∧
      (∀ j, j ≤ k → l.meanVelocity { w.terrain with depth := ds.getD j 0 } { w.st with strain := xs j } =
        .ok (vs j, xs (j + 1))) ∧
      (∀ j, j < k → vs j * w.terrain.width * ds.getD j 0 < w.terrain.effusionRateInit) ∧
      (w.terrain.effusionRateInit ≤ vs k * w.terrain.width * ds.getD k 0 ∨ k + 1 = ds.length) ∧
      w' = { w with
        terrain := { w.terrain with depth := ds.getD k 0 }
        st := { w.st with strain := xs (k + 1) }
        effusionRate := vs k * w.terrain.width * ds.getD k 0
        fluxRate := some (vs k * w.terrain.width * ds.getD k 0 * l.density w.st) } := by
  intro ds
  induction ds with
  | nil => intro w w' _ h; exact absurd rfl h
  | cons d rest ih =>
    intro w w' h _
    unfold depthSearch at h
    rw [PyM.bind_of_ok (PyM.modify_apply _ _)] at h
    obtain ⟨v, w1, hv, h⟩ := PyM.bind_eq_ok.mp h
    unfold meanVelocityM at hv
    split at hv
    swap
    · injection hv with hv; cases hv
    rename_i v' x hmv
    injection hv with e1 e2
    injection e1 with e1
    subst e1 e2
    rw [PyM.bind_of_ok (PyM.modify_apply _ _), PyM.bind_of_ok (PyM.modify_apply _ _),
      PyM.bind_of_ok (PyM.get_apply _)] at h
    dsimp only at h hmv
    have hden : l.density { w.st with strain := x } = l.density w.st := density_strain _ _ _
    rw [hden] at h
    by_cases hc : w.terrain.effusionRateInit ≤ v' * w.terrain.width * d
    · rw [if_pos ((leB_real _ _).mpr hc)] at h
      injection h with _ h
      refine ⟨0, fun j => if j = 0 then w.st.strain else x, fun _ => v', by simp, rfl, ?_, ?_, ?_, ?_⟩
      · intro j hj
        have : j = 0 := by omega
        subst this
        simpa using hmv
      · intro j hj; omega
      · left; simpa using hc
      · rw [← h]; simp
    · rw [if_neg (fun e => hc ((leB_real _ _).mp e))] at h
      by_cases hr : rest = []
      · subst hr
        injection h with _ h
        refine ⟨0, fun j => if j = 0 then w.st.strain else x, fun _ => v', by simp, rfl, ?_, ?_, ?_, ?_⟩
        · intro j hj
          have : j = 0 := by omega
          subst this
          simpa using hmv
        · intro j hj; omega
        · right; rfl
        · rw [← h]; simp
      · obtain ⟨k, xs, vs, hk, h0, h1, h2, h3, h4⟩ := ih _ _ h hr
        dsimp only at h0 h1 h2 h3 h4
        refine ⟨k + 1, fun j => if j = 0 then w.st.strain else xs (j - 1),
          fun j => if j = 0 then v' else vs (j - 1), by simpa using hk, rfl, ?_, ?_, ?_, ?_⟩
        · intro j hj
          cases j with
          | zero => simpa [h0] using hmv
          | succ j => simpa using h1 j (by omega)
        · intro j hj
          cases j with
          | zero => simpa using hc
          | succ j => simpa using h2 j (by omega)
        · rcases h3 with h3 | h3
          · left; simpa using h3
          · right; simp [h3]
        · rw [h4]; simp [hden]

theorem depthGrid_getD (k : Nat) (hk : k < 49990) : (depthGrid : List ℝ).getD k 0 = gridDepth k := by
  unfold depthGrid gridDepth
  rw [List.getD_eq_getElem?_getD, List.getElem?_map, List.getElem?_range hk]
  simp

theorem depthGrid_length : (depthGrid : List ℝ).length = 49990 := by simp [depthGrid]

/-- **C25**, every rheology. With a non-zero configured effusion rate and no error the channel depth is the
    first grid depth (1 cm + k mm, k < 49990) whose flux reaches the configured rate, or the last grid depth
    when none does; the effusion rate is the flux at that depth and the mass flux is that times the density.
    The candidates are tried one after the other, each on the state whose strain rate the previous one left
    (`xs`); nothing else changes. -/
theorem C25_first_sufficient_depth (l : Lava ℝ) (w w' : World ℝ) (hinit : w.terrain.effusionRateInit ≠ 0)
    (h : initEffusionRate l w = (.ok (), w')) :
    ∃ (k : Nat) (xs vs : Nat → ℝ), k < 49990 ∧ xs 0 = w.st.strain ∧
      (∀ j, j ≤ k → l.meanVelocity { w.terrain with depth := gridDepth j } { w.st with strain := xs j } =
        .ok (vs j, xs (j + 1))) ∧
      (∀ j, j < k → vs j * w.terrain.width * gridDepth j < w.terrain.effusionRateInit) ∧
      (w.terrain.effusionRateInit ≤ vs k * w.terrain.width * gridDepth k ∨ k = 49989) ∧
      w' = { w with
        terrain := { w.terrain with depth := gridDepth k }
        st := { w.st with strain := xs (k + 1) }
        effusionRate := vs k * w.terrain.width * gridDepth k
        fluxRate := some (vs k * w.terrain.width * gridDepth k * l.density w.st) } := by
  unfold initEffusionRate initEffusionRateOn at h
  rw [PyM.bind_of_ok (PyM.get_apply _), if_neg (by
    rw [eqB_real]; intro e; apply hinit; rw [e]; norm_num)] at h
  obtain ⟨k, xs, vs, hk, h0, h1, h2, h3, h4⟩ := depthSearch_ok l _ _ _ h (by
    intro e; have := congrArg List.length e; rw [depthGrid_length] at this; simp at this)
  rw [depthGrid_length] at hk h3
  refine ⟨k, xs, vs, hk, h0, ?_, ?_, ?_, ?_⟩
  · intro j hj
    have := h1 j hj
    rwa [depthGrid_getD j (by omega)] at this
  · intro j hj
    have := h2 j hj
    rwa [depthGrid_getD j (by omega)] at this
  · rw [depthGrid_getD k hk] at h3
    rcases h3 with h3 | h3
    · exact .inl h3
    · exact .inr (by omega)
  · rw [depthGrid_getD k hk] at h4
    exact h4

/-- **C25** for a strain-independent rheology: the depth found is the smallest grid depth whose volume flux
    (velocity * width * depth of the initial state) reaches the configured rate; if no grid depth reaches it,
    the deepest one is kept with the flux it yields, and no error is raised. -/
theorem C25_smallest_sufficient_depth (l : Lava ℝ) (hl : StrainIndependent l) (w w' : World ℝ)
    (hinit : w.terrain.effusionRateInit ≠ 0) (h : initEffusionRate l w = (.ok (), w')) :
    ∃ k, k < 49990 ∧ w'.terrain.depth = gridDepth k ∧
      VolumeFlux l w.terrain w.st (gridDepth k) w'.effusionRate ∧
      w'.fluxRate = some (w'.effusionRate * l.density w.st) ∧
      (w.terrain.effusionRateInit ≤ w'.effusionRate ∨ k = 49989) ∧
      ∀ j, j < k → ∃ q, VolumeFlux l w.terrain w.st (gridDepth j) q ∧ q < w.terrain.effusionRateInit := by
  obtain ⟨k, xs, vs, hk, h0, h1, h2, h3, h4⟩ := C25_first_sufficient_depth l w w' hinit h
  have e : ∀ j, j ≤ k → ∃ x, l.meanVelocity { w.terrain with depth := gridDepth j } w.st = .ok (vs j, x) := by
    intro j hj
    have := h1 j hj
    rw [meanVelocity_strain l hl] at this
    exact ⟨_, this⟩
  refine ⟨k, hk, by rw [h4], ?_, by rw [h4], ?_, ?_⟩
  · obtain ⟨x, hx⟩ := e k le_rfl
    exact ⟨vs k, x, hx, by rw [h4]⟩
  · rw [h4]; exact h3
  · intro j hj
    obtain ⟨x, hx⟩ := e j (by omega)
    exact ⟨_, ⟨vs j, x, hx, rfl⟩, h2 j hj⟩

/-- Sufficient condition for a search to succeed. -/
theorem depthSearch_total (l : Lava ℝ) (hl : StrainIndependent l) : ∀ (ds : List ℝ) (w : World ℝ),
    (∀ d, d ∈ ds → ∃ v x, l.meanVelocity { w.terrain with depth := d } w.st = .ok (v, x)) →
    ∃ w', depthSearch l ds w = (.ok (), w') := by
  intro ds
  induction ds with
  | nil => intro w _; exact ⟨w, rfl⟩
  | cons d rest ih =>
    intro w h
    unfold depthSearch
    rw [PyM.bind_of_ok (PyM.modify_apply _ _)]
    obtain ⟨v, x, hv⟩ := h d (by simp)
    have hm : meanVelocityM l { w with terrain := { w.terrain with depth := d } } =
        (.ok v, { w with terrain := { w.terrain with depth := d }, st := { w.st with strain := x } }) := by
      unfold meanVelocityM; rw [hv]
    rw [PyM.bind_of_ok hm, PyM.bind_of_ok (PyM.modify_apply _ _), PyM.bind_of_ok (PyM.modify_apply _ _),
      PyM.bind_of_ok (PyM.get_apply _)]
    split
    · exact ⟨_, rfl⟩
    · apply ih
      intro d' hd'
      obtain ⟨v', x', h'⟩ := h d' (by simp [hd'])
      refine ⟨v', x', ?_⟩
      dsimp only
      rw [meanVelocity_strain l hl]
      exact h'

/-- **C25**. For a strain-independent rheology whose velocity is computable at every grid depth the search
    raises nothing, whether or not the configured rate can be reached. -/
theorem C25_no_error (l : Lava ℝ) (hl : StrainIndependent l) (w : World ℝ)
    (h : ∀ k, k < 49990 → ∃ q, VolumeFlux l w.terrain w.st (gridDepth k) q) :
    ∃ w', initEffusionRate l w = (.ok (), w') := by
  unfold initEffusionRate initEffusionRateOn
  rw [PyM.bind_of_ok (PyM.get_apply _)]
  split
  · exact ⟨w, rfl⟩
  · apply depthSearch_total l hl
    intro d hd
    obtain ⟨k, hk', rfl⟩ := List.getElem_of_mem hd
    have hk := hk'
    rw [depthGrid_length] at hk
    obtain ⟨q, v, x, hv, _⟩ := h k hk
    have e : ∀ h, (depthGrid : List ℝ)[k]'h = gridDepth k := by
      intro h'
      rw [← depthGrid_getD k hk, List.getD_eq_getElem?_getD, List.getElem?_eq_getElem h']
      rfl
    rw [e]
    exact ⟨v, x, hv⟩

section
variable {α : Type} [Add α] [Sub α] [Mul α] [Neg α] [OfScientific α] [PyNum α]
/-- **C26** (any number type). With a configured effusion rate of zero nothing at all changes. -/
theorem C26_zero_rate_changes_nothing (l : Lava α) (w : World α)
    (h : eqB w.terrain.effusionRateInit 0.0 = true) : initEffusionRate l w = (.ok (), w) := by
  unfold initEffusionRate initEffusionRateOn
  rw [PyM.bind_of_ok (PyM.get_apply _), if_pos h]
  rfl
end

/-- **C26**. With a configured effusion rate of zero, an accepted first step sets the effusion rate to
    velocity * width * depth of the configured channel. -/
theorem C26_first_step_sets_rate (g : Integrator ℝ) (w0 w w' : World ℝ)
    (h0 : w0.terrain.effusionRateInit = 0) (hit : w0.iteration = 0)
    (hi : initEffusionRate g.models.lava w0 = (.ok (), w)) (h : AcceptedStep g w w') :
    ∃ v x, g.models.lava.meanVelocity w0.terrain w0.st = .ok (v, x) ∧
      w'.effusionRate = v * w0.terrain.width * w0.terrain.depth ∧ w'.terrain.depth = w0.terrain.depth := by
  rw [C26_zero_rate_changes_nothing _ _ (by rw [eqB_real, h0]; norm_num)] at hi
  injection hi with _ hi
  subst hi
  obtain ⟨A⟩ := acceptedFacts h
  refine ⟨A.v, A.x, A.hv, ?_, by rw [A.hw]⟩
  have e := congrArg World.effusionRate A.hw
  simpa [World.stepEffusion, hit] using e

/-! ### C27 -/

/-- The flux of a channel of depth `d` when the basal stress is `c * d`. -/
theorem flux_eq {w mu c t0 d : ℝ} (hc : 0 < c) (hd : 0 < d) (hmu : 0 < mu) :
    binghamVelocity d (c * d) mu t0 * w * d =
      w / (3 * mu) * (c * d ^ 3 - 3 / 2 * t0 * d ^ 2 + t0 ^ 3 / (2 * c ^ 2)) := by
  unfold binghamVelocity
  field_simp

/-- The basal stress and the flux of a channel, for a terrain of which only the depth varies. -/
theorem volumeFlux_eq (l : Lava ℝ) (t : Terrain ℝ) (s : FlowState ℝ) (sl tho0 visc d q : ℝ)
    (hsl : t.slope s.pos = .ok sl) (h0 : l.yieldStrength s = .ok tho0)
    (hm : l.bulkViscosity s = .ok visc) (hq : VolumeFlux l t s d q) :
    q = binghamVelocity d (l.density s * t.gravity * Real.sin sl * d) visc tho0 * t.width * d := by
  obtain ⟨v, x, hv, rfl⟩ := hq
  obtain ⟨a, b, c, ha, hb, hc, hv⟩ := C17_velocity_is_bingham _ _ _ _ _ hv
  rw [h0] at ha; rw [hm] at hc; cases ha; cases hc
  obtain ⟨sl', hsl', hb⟩ := (C35_basal_stress_law _ _ _ _).mp hb
  have : sl' = sl := by
    have e : Except.ok sl' = (Except.ok sl : Except Err ℝ) := hsl'.symm.trans hsl
    injection e
  subst this
  have e : b = l.density s * t.gravity * Real.sin sl' * d := by
    rw [hb]
    have e1 : (1.0 : ℝ) = 1 := by norm_num
    simp only [basalShear, Lava.density, Lava.vesicleFraction, e1]; ring
  rw [hv, e]

/-- **C27**. For a fixed state, as a function of the channel depth, the flux is strictly increasing on the
    depths at which the basal stress is at least the yield strength, and strictly *decreasing* on those at
    which it is at most the yield strength (tho_b(d) = density*g*sin(slope)*d). -/
theorem C27_flux_monotone_in_depth (l : Lava ℝ) (t : Terrain ℝ) (s : FlowState ℝ) (sl tho0 visc d d' q q' : ℝ)
    (hsl : t.slope s.pos = .ok sl) (h0 : l.yieldStrength s = .ok tho0) (hm : l.bulkViscosity s = .ok visc)
    (hq : VolumeFlux l t s d q) (hq' : VolumeFlux l t s d' q')
    (hpull : 0 < l.density s * t.gravity * Real.sin sl) (hvisc : 0 < visc) (hwidth : 0 < t.width)
    (htho : 0 ≤ tho0) (hd : 0 < d) (hdd : d < d') :
    (tho0 ≤ l.density s * t.gravity * Real.sin sl * d → q < q') ∧
    (l.density s * t.gravity * Real.sin sl * d' ≤ tho0 → q' < q) := by
  rw [volumeFlux_eq l t s sl tho0 visc d q hsl h0 hm hq, volumeFlux_eq l t s sl tho0 visc d' q' hsl h0 hm hq']
  generalize l.density s * t.gravity * Real.sin sl = c at *
  have hd' : 0 < d' := hd.trans hdd
  rw [flux_eq hpull hd hvisc, flux_eq hpull hd' hvisc]
  have hk : 0 < t.width / (3 * visc) := by positivity
  have key : ∀ a b : ℝ, (c * b ^ 3 - 3 / 2 * tho0 * b ^ 2 + tho0 ^ 3 / (2 * c ^ 2))
      - (c * a ^ 3 - 3 / 2 * tho0 * a ^ 2 + tho0 ^ 3 / (2 * c ^ 2))
      = (b - a) * ((c * a - tho0) * a + (c * b - tho0) * b + (c * a * b - tho0 * (a + b) / 2)) := by
    intro a b; ring
  constructor
  · intro h
    apply mul_lt_mul_of_pos_left _ hk
    rw [← sub_pos, key]
    apply mul_pos (by linarith)
    have h1 : 0 ≤ (c * d - tho0) * d := mul_nonneg (by linarith) hd.le
    have h3 : c * d < c * d' := mul_lt_mul_of_pos_left hdd hpull
    have h2 : 0 < (c * d' - tho0) * d' := mul_pos (by linarith) hd'
    have h4 : tho0 * (d + d') / 2 ≤ c * d * d' := by nlinarith
    linarith
  · intro h
    apply mul_lt_mul_of_pos_left _ hk
    rw [← sub_pos, ← neg_sub, neg_pos, key]
    apply mul_neg_of_pos_of_neg (by linarith)
    have h3 : c * d < c * d' := mul_lt_mul_of_pos_left hdd hpull
    have h1 : (c * d - tho0) * d < 0 := mul_neg_of_neg_of_pos (by linarith) hd
    have h2 : (c * d' - tho0) * d' ≤ 0 := mul_nonpos_of_nonpos_of_nonneg (by linarith) hd'.le
    have h4 : c * d * d' ≤ tho0 * (d + d') / 2 := by nlinarith
    linarith

/-- **C27**, consequence for the search: above the yield depth the threshold is sharp. If the search (of a
    strain-independent rheology) ends at grid depth k with the basal stress of the first grid depth already at
    least the yield strength, then a grid depth has sufficient flux iff its index is at least k. -/
theorem C27_threshold (l : Lava ℝ) (hl : StrainIndependent l) (w w' : World ℝ) (sl tho0 visc : ℝ)
    (hinit : w.terrain.effusionRateInit ≠ 0) (h : initEffusionRate l w = (.ok (), w'))
    (hsl : w.terrain.slope w.st.pos = .ok sl) (h0 : l.yieldStrength w.st = .ok tho0)
    (hm : l.bulkViscosity w.st = .ok visc)
    (hpull : 0 < l.density w.st * w.terrain.gravity * Real.sin sl) (hvisc : 0 < visc)
    (hwidth : 0 < w.terrain.width) (htho : 0 ≤ tho0)
    (hfirst : tho0 ≤ l.density w.st * w.terrain.gravity * Real.sin sl * gridDepth 0)
    (hreach : w.terrain.effusionRateInit ≤ w'.effusionRate) :
    ∃ k, w'.terrain.depth = gridDepth k ∧ ∀ (j : Nat) (q : ℝ), VolumeFlux l w.terrain w.st (gridDepth j) q →
      (w.terrain.effusionRateInit ≤ q ↔ k ≤ j) := by
  obtain ⟨k, hk, hd, hf, _, _, hlt⟩ := C25_smallest_sufficient_depth l hl w w' hinit h
  refine ⟨k, hd, fun j q hq => ⟨?_, ?_⟩⟩
  · intro hle
    by_contra hc
    obtain ⟨q', hq', hlt'⟩ := hlt j (by omega)
    have e : q = q' := by
      obtain ⟨v, x, hv, rfl⟩ := hq
      obtain ⟨v', x', hv', rfl⟩ := hq'
      rw [hv] at hv'
      injection hv' with e
      injection e with e _
      rw [e]
    linarith
  · intro hle
    rcases Nat.lt_or_ge k j with hkj | hkj
    · have hgk : gridDepth k < gridDepth j := by
        unfold gridDepth
        have : (k : ℝ) < (j : ℝ) := by exact_mod_cast hkj
        linarith
      have hg0 : gridDepth 0 ≤ gridDepth k := by
        unfold gridDepth
        have : (0 : ℝ) ≤ (k : ℝ) := by positivity
        push_cast; linarith
      have hgp : 0 < gridDepth k := by unfold gridDepth; positivity
      have := (C27_flux_monotone_in_depth l w.terrain w.st sl tho0 visc _ _ _ _ hsl h0 hm hf hq hpull hvisc hwidth
        htho hgp hgk).1 (hfirst.trans (mul_le_mul_of_nonneg_left hg0 hpull.le))
      linarith
    · have : j = k := by omega
      subst this
      obtain ⟨v, x, hv, rfl⟩ := hq
      obtain ⟨v', x', hv', e'⟩ := hf
      rw [hv] at hv'
      injection hv' with e
      injection e with e _
      rw [e, ← e']; exact hreach

/-! ### Examples and the witness of C27 -/

theorem exLava_basal_depth (g d mu : ℝ) (rel : RelModel ℝ) (yld : YieldModel ℝ) (s : FlowState ℝ) (r : ℝ) :
    (exLava mu rel yld).basalStress { exTerrain g with depth := d, effusionRateInit := r } s = .ok (d * g) := by
  unfold Lava.basalStress
  rw [exLava_density]
  simp [Terrain.slope, exTerrain, pure_eq_ok]

theorem ex_strainIndependent (mu : ℝ) (yld : YieldModel ℝ) (p : ℝ) :
    StrainIndependent (exLava mu .er yld) ∧ StrainIndependent (exLava mu (.mp p) yld) :=
  ⟨C22_which_models_are_strain_independent _ (by intros; simp [exLava]) (by intros; simp [exLava])
    (by intros; simp [exLava]),
  C22_which_models_are_strain_independent _ (by intros; simp [exLava]) (by intros; simp [exLava])
    (by intros; simp [exLava])⟩

/-- The flux of a Newtonian lava of viscosity 1, width 1, driving stress 3*d: d^3. -/
theorem ex_flux (r d : ℝ) (hd : 0 < d) : VolumeFlux (exLava 1 .er .ryerson)
    { exTerrain 3 with effusionRateInit := r } (exState 0 0) d (d ^ 3) := by
  refine ⟨d ^ 2, 3 * d ^ 2 / d, ?_, ?_⟩
  · rw [meanVelocity_ok_iff]
    refine ⟨0, d * 3, 1 * 1, ryerson_zero 0, exLava_basal_depth 3 d 1 .er .ryerson _ r,
      exLava_bulk 1 0 0 1 .er .ryerson (er_zero 0), by norm_num, by positivity, hd.ne', ?_, rfl⟩
    unfold binghamVelocity
    simp only
    field_simp
    ring
  · simp only [exTerrain]; ring

theorem gridDepth_pos (k : Nat) : 0 < gridDepth k := by unfold gridDepth; positivity

/-- The search runs, and for a rate of 1e-3 m3/s in this channel it stops at 10 cm (k = 90), not before. -/
example : ∃ w', initEffusionRate (exLava 1 .er .ryerson)
      (newWorld { exTerrain 3 with effusionRateInit := 0.001 } (exState 0 0) []) = (.ok (), w') ∧
    w'.terrain.depth = 0.1 := by
  obtain ⟨w', h⟩ := C25_no_error _ (ex_strainIndependent 1 .ryerson 1).1
    (newWorld { exTerrain 3 with effusionRateInit := 0.001 } (exState 0 0) [])
    (fun k _ => ⟨_, ex_flux 0.001 _ (gridDepth_pos k)⟩)
  refine ⟨w', h, ?_⟩
  obtain ⟨k, hk, hd, hf, _, hs, hlt⟩ := C25_smallest_sufficient_depth _ (ex_strainIndependent 1 .ryerson 1).1 _ _
    (by norm_num [newWorld]) h
  have huniq : ∀ d q, 0 < d → VolumeFlux (exLava 1 .er .ryerson)
      { exTerrain 3 with effusionRateInit := 0.001 } (exState 0 0) d q → q = d ^ 3 := by
    intro d q hd' hq
    obtain ⟨v, x, hv, rfl⟩ := hq
    obtain ⟨v', x', hv', e'⟩ := ex_flux 0.001 d hd'
    rw [hv] at hv'; injection hv' with e; injection e with e _
    rw [e, ← e']
  have hq := huniq _ _ (gridDepth_pos k) hf
  have hkk : k = 90 := by
    rcases Nat.lt_trichotomy k 90 with hk' | hk' | hk'
    · exfalso
      have hlast : k ≠ 49989 := by omega
      have := hs.resolve_right hlast
      rw [hq] at this
      have hc : (k : ℝ) ≤ 89 := by exact_mod_cast Nat.lt_succ_iff.mp hk'
      have hg : gridDepth k ≤ 0.099 := by unfold gridDepth; linarith
      have : gridDepth k ^ 3 ≤ 0.099 ^ 3 := pow_le_pow_left₀ (gridDepth_pos k).le hg 3
      simp only [newWorld] at *
      norm_num at *
      linarith
    · exact hk'
    · exfalso
      obtain ⟨q, hq, hlt⟩ := hlt 90 hk'
      rw [huniq _ _ (gridDepth_pos 90) hq] at hlt
      simp only [newWorld, gridDepth] at hlt
      norm_num at hlt
  rw [hd, hkk]; norm_num [gridDepth]

/-- **C27**, the search can return a depth at which the lava cannot move: yield strength 6500 Pa, requested
    rate 1 m3/s; the search stops at once, at 1 cm, where the yield check says "not compatible". -/
theorem C27_search_accepts_immobile_depth :
    ∃ (l : Lava ℝ) (w w' : World ℝ), StrainIndependent l ∧ w.terrain.effusionRateInit = 1 ∧
      initEffusionRate l w = (.ok (), w') ∧ w'.terrain.depth = gridDepth 0 ∧
      l.yieldNotCompatible w'.terrain w'.st = .ok true := by
  have hy : (exLava 1 (.mp 2) .ryerson).yieldStrength (exState 1 0) = .ok 6500 := ryerson_one 0
  have hm := exLava_bulk 1 1 0 4 (.mp 2) .ryerson (mp_two 0)
  have hl := (ex_strainIndependent 1 .ryerson 2).2
  have hflux : ∀ d : ℝ, 0 < d → ∃ q, VolumeFlux (exLava 1 (.mp 2) .ryerson)
      { exTerrain 1 with effusionRateInit := 1 } (exState 1 0) d q := by
    intro d hd
    exact ⟨_, _, _, (meanVelocity_ok_iff _ _ _ _ _).mpr ⟨6500, d * 1, 1 * 4, hy,
      exLava_basal_depth 1 d 1 (.mp 2) .ryerson _ 1, hm, by norm_num, by positivity, hd.ne', rfl, rfl⟩, rfl⟩
  obtain ⟨w', h⟩ := C25_no_error _ hl (newWorld { exTerrain 1 with effusionRateInit := 1 } (exState 1 0) [])
    (fun k _ => hflux _ (gridDepth_pos k))
  refine ⟨_, _, w', hl, rfl, h, ?_⟩
  obtain ⟨k, xs, vs, hk, _, h1, h2, _, h4⟩ := C25_first_sufficient_depth _ _ _ (by norm_num [newWorld]) h
  have hk0 : k = 0 := by
    by_contra hne
    have hlt := h2 0 (Nat.pos_of_ne_zero hne)
    have hv := h1 0 (Nat.zero_le _)
    rw [meanVelocity_strain _ hl] at hv
    have e := volumeFlux_eq _ { exTerrain 1 with effusionRateInit := 1 } (exState 1 0) (Real.pi / 2) 6500 (1 * 4)
      (gridDepth 0) _ rfl hy hm ⟨_, _, hv, rfl⟩
    rw [exLava_density] at e
    simp only [newWorld] at hlt
    rw [e] at hlt
    norm_num [binghamVelocity, gridDepth, exTerrain] at hlt
  subst hk0
  constructor
  · rw [h4]
  · rw [h4]
    rw [yieldNotCompatible_strain, C36_yield_check]
    exact ⟨6500, gridDepth 0 * 1, hy, exLava_basal_depth 1 _ 1 (.mp 2) .ryerson _ 1,
      by norm_num [gridDepth]⟩

end PyFlowGo
