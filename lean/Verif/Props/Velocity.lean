import Verif.Proofs.Examples
import Verif.Proofs.NoRuntime
import Verif.Proofs.StrainFree
/-
  C17-C22, C35, C36: the velocity computation.
-/
namespace PyFlowGo
open Spec

/-- `compute_mean_velocity` on the code's yield strength, basal stress and viscosity is the Bingham law.
    (Existence of the three numbers is the success of the three computations.) -/
theorem C17_velocity_is_bingham (l : Lava ℝ) (t : Terrain ℝ) (s : FlowState ℝ) (v x : ℝ)
    (h : l.meanVelocity t s = .ok (v, x)) :
    ∃ tho0 thob visc, l.yieldStrength s = .ok tho0 ∧ l.basalStress t s = .ok thob ∧
      l.bulkViscosity s = .ok visc ∧ v = binghamVelocity t.depth thob visc tho0 := by
  obtain ⟨t0, tb, mu, h0, hb, h1, _, _, _, hv, _⟩ := (meanVelocity_ok_iff l t s v x).mp h
  exact ⟨t0, tb, mu, h0, hb, h1, hv⟩

/-- **C17**. With basal stress, viscosity and depth positive and 0 <= tho_0 <= tho_b the call succeeds,
    the velocity is >= 0, and it is 0 exactly when tho_0 = tho_b. -/
theorem C17_zero_exactly_at_yield (l : Lava ℝ) (t : Terrain ℝ) (s : FlowState ℝ) (tho0 thob visc : ℝ)
    (h0 : l.yieldStrength s = .ok tho0) (hb : l.basalStress t s = .ok thob)
    (hm : l.bulkViscosity s = .ok visc)
    (hthob : 0 < thob) (hvisc : 0 < visc) (hdepth : 0 < t.depth) (hle0 : 0 ≤ tho0) (_hle : tho0 ≤ thob) :
    ∃ v x, l.meanVelocity t s = .ok (v, x) ∧ 0 ≤ v ∧ (v = 0 ↔ tho0 = thob) :=
  ⟨_, _, (meanVelocity_ok_iff l t s _ _).mpr ⟨tho0, thob, visc, h0, hb, hm, hvisc.ne', hthob.ne',
      hdepth.ne', rfl, rfl⟩,
    bingham_nonneg hdepth hthob hvisc hle0, bingham_eq_zero hdepth hthob hvisc hle0⟩

/-- **C18**. For fixed other quantities the velocity is strictly decreasing in the yield strength on
    [0, tho_b], strictly decreasing in the viscosity when tho_0 < tho_b, and depth*tho_b/(3*viscosity)
    when tho_0 = 0.  Two arbitrary lavas/states sharing the other quantities are compared. -/
theorem C18_velocity_monotone (l l' : Lava ℝ) (t t' : Terrain ℝ) (s s' : FlowState ℝ)
    (v x v' x' tho0 tho0' thob visc visc' : ℝ)
    (hv : l.meanVelocity t s = .ok (v, x)) (hv' : l'.meanVelocity t' s' = .ok (v', x'))
    (h0 : l.yieldStrength s = .ok tho0) (h0' : l'.yieldStrength s' = .ok tho0')
    (hb : l.basalStress t s = .ok thob) (hb' : l'.basalStress t' s' = .ok thob)
    (hm : l.bulkViscosity s = .ok visc) (hm' : l'.bulkViscosity s' = .ok visc')
    (hd : t.depth = t'.depth) (hdepth : 0 < t.depth) (hthob : 0 < thob) (hvisc : 0 < visc)
    (hpos : 0 ≤ tho0) :
    (visc' = visc → tho0 < tho0' → tho0' ≤ thob → v' < v) ∧
    (tho0' = tho0 → visc < visc' → tho0 < thob → v' < v) ∧
    (tho0 = 0 → v = t.depth * thob / (3 * visc)) := by
  obtain ⟨a, b, c, ha, hb1, hc, _, _, _, e1, _⟩ := (meanVelocity_ok_iff l t s v x).mp hv
  obtain ⟨a', b', c', ha', hb1', hc', _, _, _, e1', _⟩ := (meanVelocity_ok_iff l' t' s' v' x').mp hv'
  rw [h0] at ha; rw [hb] at hb1; rw [hm] at hc; rw [h0'] at ha'; rw [hb'] at hb1'; rw [hm'] at hc'
  cases ha; cases hb1; cases hc; cases ha'; cases hb1'; cases hc'
  subst e1 e1'
  rw [← hd]
  refine ⟨?_, ?_, ?_⟩
  · intro e h1 h2; subst e
    exact bingham_strictAnti_yield hdepth hthob hvisc hpos h1 h2
  · intro e h1 h2; subst e
    exact bingham_strictAnti_visc hdepth hthob hvisc h1 hpos h2.ne
  · intro e; subst e
    simp [binghamVelocity]

/-- **C19**, the expectation is false. Whenever tho_0 > tho_b > 0 (with positive viscosity and depth) the
    computed velocity is strictly positive. -/
theorem C19_yield_above_stress_still_moves (l : Lava ℝ) (t : Terrain ℝ) (s : FlowState ℝ)
    (tho0 thob visc : ℝ)
    (h0 : l.yieldStrength s = .ok tho0) (hb : l.basalStress t s = .ok thob)
    (hm : l.bulkViscosity s = .ok visc)
    (hthob : 0 < thob) (hvisc : 0 < visc) (hdepth : 0 < t.depth) (hgt : thob < tho0) :
    ∃ v x, l.meanVelocity t s = .ok (v, x) ∧ 0 < v :=
  ⟨_, _, (meanVelocity_ok_iff l t s _ _).mpr ⟨tho0, thob, visc, h0, hb, hm, hvisc.ne', hthob.ne',
      hdepth.ne', rfl, rfl⟩, bingham_pos hdepth hthob hvisc (hthob.trans hgt).le hgt.ne'⟩

/-- **C19**, and it grows without bound with tho_0: it is at least (tho_0 - tho_b)^2 times a positive
    constant of the other quantities. -/
theorem C19_unbounded (l : Lava ℝ) (t : Terrain ℝ) (s : FlowState ℝ) (tho0 thob visc v x : ℝ)
    (h0 : l.yieldStrength s = .ok tho0) (hb : l.basalStress t s = .ok thob)
    (hm : l.bulkViscosity s = .ok visc) (hv : l.meanVelocity t s = .ok (v, x))
    (hthob : 0 < thob) (hvisc : 0 < visc) (hdepth : 0 < t.depth) (hgt : thob < tho0) :
    t.depth / (3 * visc * thob) * (tho0 - thob) ^ 2 ≤ v := by
  obtain ⟨a, b, c, ha, hb1, hc, _, _, _, e1, _⟩ := (meanVelocity_ok_iff l t s v x).mp hv
  rw [h0] at ha; rw [hb] at hb1; rw [hm] at hc
  cases ha; cases hb1; cases hc
  rw [e1]; unfold binghamVelocity
  rw [bingham_factor]
  have hr : 0 ≤ tho0 / thob := by have := hthob.trans hgt; positivity
  have e : t.depth / (3 * visc * thob) * (tho0 - thob) ^ 2 =
      t.depth * thob / (3 * visc) * ((1 - tho0 / thob) ^ 2 * 1) := by
    field_simp; ring
  rw [e]
  apply mul_le_mul_of_nonneg_left _ (by positivity)
  apply mul_le_mul_of_nonneg_left _ (by positivity)
  linarith

/-- Witness for C19: a lava with tho_0 = 6500 Pa on a basal stress of 1 Pa moves. -/
theorem C19_witness : ∃ (l : Lava ℝ) (t : Terrain ℝ) (s : FlowState ℝ) (v x : ℝ),
    l.yieldNotCompatible t s = .ok true ∧ l.meanVelocity t s = .ok (v, x) ∧ 0 < v := by
  have hy : (exLava 1 (.mp 2) .ryerson).yieldStrength (exState 1 0) = .ok 6500 := ryerson_one 0
  have hb := exLava_basal 1 1 (.mp 2) .ryerson (exState 1 0)
  have hm := exLava_bulk 1 1 0 4 (.mp 2) .ryerson (mp_two 0)
  obtain ⟨v, x, h1, h2⟩ := C19_yield_above_stress_still_moves _ _ _ _ _ _ hy hb hm (by norm_num)
    (by norm_num) (by norm_num [exTerrain]) (by norm_num)
  refine ⟨_, _, _, v, x, ?_, h1, h2⟩
  unfold Lava.yieldNotCompatible
  rw [hy, ok_bind, hb, ok_bind]
  simp only [pure_ok_iff, leB_real]
  norm_num

/-- **C20**. `compute_mean_velocity` never raises RuntimeError ... -/
theorem C20_never_fails_to_converge (l : Lava ℝ) (t : Terrain ℝ) (s : FlowState ℝ) :
    l.meanVelocity t s ≠ .error .runtimeError := meanVelocity_notRT l t s

/-- **C20**. ... and two passes are always enough: with a budget of two iterations the loop gives the
    same result as with any larger one. -/
theorem C20_two_passes_suffice (l : Lava ℝ) (s : FlowState ℝ) (depth tho0 thob : ℝ) (n : Nat)
    (strain : ℝ) :
    velocityLoop l s depth tho0 thob (n + 2) strain = velocityLoop l s depth tho0 thob 2 strain := by
  rw [velocityLoop_eq, velocityLoop_eq l s depth tho0 thob 0]

/-- **C20**, one pass is not always enough (the budget of two is sharp). -/
theorem C20_one_pass_not_enough :
    ∃ (l : Lava ℝ) (s : FlowState ℝ), ∃ depth tho0 thob strain : ℝ,
      velocityLoop l s depth tho0 thob 1 strain = .error .runtimeError := by
  refine ⟨exLava 1 .er .ryerson, exState 0 0, 1, 0, 1, 0, ?_⟩
  rw [velocityLoop, exLava_bulk 1 0 0 1 .er .ryerson (er_zero 0), ok_bind, velocityFormula_real]
  rw [if_neg (by norm_num), if_neg (by norm_num), ok_bind, div_of_ne (by norm_num), ok_bind]
  simp only [binghamVelocity, absv_real, pyMax_real, leB_real]
  rw [if_neg (by norm_num), velocityLoop]

section
variable {α : Type} [Add α] [Sub α] [Mul α] [Neg α] [OfScientific α] [PyNum α]

/-- **C21** (any number type). A call changes nothing but the strain rate of the state, and a failing
    call changes nothing. -/
theorem C21_only_strain_changes (l : Lava α) (w w' : World α) (r : Except Err α)
    (h : meanVelocityM l w = (r, w')) :
    (∃ x, w' = { w with st := { w.st with strain := x } }) ∧ (∀ e, r = .error e → w' = w) := by
  unfold meanVelocityM at h
  split at h
  · injection h with h1 h2
    exact ⟨⟨_, h2.symm⟩, fun e he => by rw [← h1] at he; cases he⟩
  · injection h with h1 h2
    exact ⟨⟨w.st.strain, by rw [← h2]⟩, fun e _ => h2.symm⟩
end

/-- **C21**. After a successful call the stored strain rate is 3*v/depth of the returned velocity. -/
theorem C21_strain_of_velocity (l : Lava ℝ) (w w' : World ℝ) (v : ℝ)
    (h : meanVelocityM l w = (.ok v, w')) :
    w' = { w with st := { w.st with strain := 3 * v / w.terrain.depth } } := by
  unfold meanVelocityM at h
  split at h
  · rename_i v' x hv
    injection h with h1 h2
    injection h1 with h1
    obtain ⟨_, _, _, _, _, _, _, _, _, _, hx⟩ := (meanVelocity_ok_iff _ _ _ _ _).mp hv
    rw [← h2, hx, h1]
  · injection h with h1; cases h1

/-- **C22**. For rheologies that do not read the strain rate, calling again gives the same velocity and
    leaves the world as it is. -/
theorem C22_strain_free_reproducible (l : Lava ℝ) (hl : StrainIndependent l) (w w' : World ℝ) (v : ℝ)
    (h : meanVelocityM l w = (.ok v, w')) : meanVelocityM l w' = (.ok v, w') := by
  have hw := C21_strain_of_velocity l w w' v h
  unfold meanVelocityM at h ⊢
  split at h
  · rename_i v' x hv
    injection h with h1 h2
    injection h1 with h1
    subst h1
    have : l.meanVelocity w'.terrain w'.st = .ok (v', x) := by
      rw [← h2]; simp only; rw [meanVelocity_strain l hl]; exact hv
    rw [this]
    simp only [Prod.mk.injEq, true_and]
    rw [← h2]
  · injection h with h1; cases h1

section
variable {α : Type} [Add α] [Sub α] [Mul α] [Neg α] [OfScientific α] [PyNum α]

/-- **C22**. Every combination of models other than the bll and mader relative viscosities and the mader
    bubble model is strain-independent. -/
theorem C22_which_models_are_strain_independent (l : Lava α)
    (h1 : ∀ a b c d e f g i, l.rel ≠ .bll a b c d e f g i) (h2 : ∀ a, l.rel ≠ .mader a)
    (h3 : ∀ a b c d e, l.bub ≠ .mader a b c d e) : StrainIndependent l := by
  intro s x
  apply bulk_strain
  constructor
  · unfold RelModel.StrainFree
    split
    · rename_i h; exact h1 _ _ _ _ _ _ _ _ h
    · rename_i h; exact h2 _ h
    · trivial
  · unfold BubModel.StrainFree
    split
    · rename_i h; exact h3 _ _ _ _ _ h
    · trivial
end

/-- The mader law with aspect ratio 1 at crystal fraction 0.495. -/
theorem mader_example (x : ℝ) (hx : 0 < x) :
    (RelModel.mader 1 : RelModel ℝ).relative (exState 0.495 x) = .ok (100 * x ^ (-0.13122 : ℝ)) := by
  have hm : muellerPhimax (1 : ℝ) = .ok 0.55 := by
    unfold muellerPhimax
    rw [log10_of_pos (by norm_num), ok_bind, div_of_ne (by norm_num), ok_bind]
    simp [pure_eq_ok]
  unfold RelModel.relative maderRelative
  simp only [exState]
  rw [hm, ok_bind, div_of_ne (by norm_num), ok_bind]
  simp only [npow_real, leB_real, ltB_real]
  rw [if_pos (by norm_num), if_pos (by norm_num), if_neg (by norm_num; exact hx),
    mpow_of_pos _ (by norm_num), ok_bind, pow_of_pos _ hx, ok_bind, pure_eq_ok]
  congr 2
  · rw [show (1.0 - 0.495 / 0.55 : ℝ) = (10:ℝ)⁻¹ by norm_num, show (-2.0 : ℝ) = -((2 : ℕ) : ℝ) by norm_num,
      Real.rpow_neg (by norm_num), Real.rpow_natCast]
    norm_num
  · norm_num

/-- A mader lava whose second velocity evaluation is `c < 0.9` times the first; the two viscosities. -/
theorem mader_witness : ∃ v1 c mu : ℝ, 0 < v1 ∧ 0 < c ∧ c < 0.9 ∧ 0 < mu ∧
    (exLava (10 ^ 4) (.mader 1) .ryerson).meanVelocity (exTerrain (10 ^ 4)) (exState 0.495 1) =
      .ok (v1, 3 * v1 / 1) ∧
    (exLava (10 ^ 4) (.mader 1) .ryerson).meanVelocity (exTerrain (10 ^ 4)) (exState 0.495 (3 * v1 / 1)) =
      .ok (c * v1, 3 * (c * v1) / 1) ∧
    (exLava (10 ^ 4) (.mader 1) .ryerson).bulkViscosity (exState 0.495 1) = .ok mu ∧
    (exLava (10 ^ 4) (.mader 1) .ryerson).bulkViscosity (exState 0.495 (3 * v1 / 1)) = .ok (mu / c) := by
  obtain ⟨t0, hy, h0, h1⟩ : ∃ t0 : ℝ, (∀ x, (YieldModel.ryerson : YieldModel ℝ).strength (exState 0.495 x) = .ok t0)
      ∧ 0 ≤ t0 ∧ t0 ≤ 6500 := by
    refine ⟨6500.0 * (0.495 : ℝ) ^ (2.85 : ℝ), ?_, ?_, ?_⟩
    · intro x
      unfold YieldModel.strength ryersonTerm
      simp only [exState]
      rw [pow_of_pos _ (by norm_num), ok_bind, pure_eq_ok]
    · positivity
    · have : (0.495 : ℝ) ^ (2.85 : ℝ) ≤ 1 := Real.rpow_le_one (by norm_num) (by norm_num) (by norm_num)
      linarith
  have hb := fun x => exLava_basal (10 ^ 4) (10 ^ 4) (.mader 1) .ryerson (exState 0.495 x)
  have hm := fun x hx => exLava_bulk (10 ^ 4) 0.495 x _ (.mader 1) .ryerson (mader_example x hx)
  set v1 := binghamVelocity 1 (10 ^ 4) (10 ^ 4 * (100 * (1:ℝ) ^ (-0.13122 : ℝ))) t0 with hv1
  have hv1' : v1 = 1 / 300 * (1 - 3 / 2 * (t0 / 10 ^ 4) + 1 / 2 * (t0 / 10 ^ 4) ^ 3) := by
    rw [hv1, Real.one_rpow]; unfold binghamVelocity; norm_num
  have hpos : 0 < v1 := bingham_pos (by norm_num) (by norm_num) (by norm_num) h0 (by linarith)
  have hle : v1 ≤ 1 / 300 := by
    rw [hv1', bingham_factor]
    have hr0 : 0 ≤ t0 / 10 ^ 4 := by positivity
    have hr1 : t0 / 10 ^ 4 ≤ 1 := by rw [div_le_one (by norm_num)]; linarith
    generalize t0 / 10 ^ 4 = r at *
    have : (1 - r) ^ 2 * (1 + r / 2) ≤ 1 := by nlinarith [mul_nonneg hr0 hr0, mul_nonneg hr0 (sub_nonneg.mpr hr1), mul_nonneg (mul_nonneg hr0 hr0) (sub_nonneg.mpr hr1)]
    linarith
  have hx1 : 0 < 3 * v1 / 1 := by linarith
  set c := (3 * v1 / 1) ^ (0.13122 : ℝ) with hc
  have hc0 : 0 < c := Real.rpow_pos_of_pos hx1 _
  have hc1 : c < 0.9 := by
    have h2 : c ≤ (1 / 100 : ℝ) ^ (0.13122 : ℝ) := by
      apply Real.rpow_le_rpow hx1.le _ (by norm_num)
      linarith
    have h3 : (1 / 100 : ℝ) ^ (0.13122 : ℝ) ≤ (1 / 100 : ℝ) ^ (0.1 : ℝ) :=
      Real.rpow_le_rpow_of_exponent_ge (by norm_num) (by norm_num) (by norm_num)
    have h4 : (1 / 100 : ℝ) ^ (0.1 : ℝ) < 0.9 := by
      have h5 : (1 / 100 : ℝ) ^ (0.1 : ℝ) < ((0.9 : ℝ) ^ (10 : ℕ)) ^ (0.1 : ℝ) :=
        Real.rpow_lt_rpow (by norm_num) (by norm_num) (by norm_num)
      have h6 : ((0.9 : ℝ) ^ (10 : ℕ)) ^ (0.1 : ℝ) = 0.9 := by
        rw [← Real.rpow_natCast, ← Real.rpow_mul (by norm_num)]
        norm_num
      linarith
    linarith
  have hv2 : binghamVelocity 1 (10 ^ 4) (10 ^ 4 * (100 * (3 * v1 / 1) ^ (-0.13122 : ℝ))) t0 = c * v1 := by
    rw [Real.rpow_neg hx1.le, ← hc, hv1']
    unfold binghamVelocity
    field_simp
    ring
  refine ⟨v1, c, 10 ^ 4 * (100 * (1:ℝ) ^ (-0.13122 : ℝ)), hpos, hc0, hc1, by positivity, ?_, ?_, hm 1 one_pos, ?_⟩
  · rw [meanVelocity_ok_iff]
    exact ⟨t0, _, _, hy 1, hb 1, hm 1 one_pos, by norm_num, by norm_num, by norm_num [exTerrain],
      rfl, rfl⟩
  · rw [meanVelocity_ok_iff]
    refine ⟨t0, _, _, hy (3 * v1 / 1), hb (3 * v1 / 1), hm (3 * v1 / 1) hx1, by positivity, by norm_num, by norm_num [exTerrain],
      hv2.symm, rfl⟩
  · rw [hm (3 * v1 / 1) hx1, Real.rpow_neg hx1.le, ← hc, Real.one_rpow]
    rw [mul_one, ← mul_assoc, div_eq_mul_inv]

/-- **C22**, the strain-dependent half. With the mader relative viscosity there is a state on which a second
    call returns a velocity more than 10 % below the first: the strain rate stored by the call is not
    consistent, within the 1 % the loop aims at, with the viscosity at that strain rate. -/
theorem C22_strain_dependent_not_reproducible :
    ∃ (l : Lava ℝ) (t : Terrain ℝ) (s : FlowState ℝ) (v1 x1 v2 x2 : ℝ),
      l.meanVelocity t s = .ok (v1, x1) ∧ l.meanVelocity t { s with strain := x1 } = .ok (v2, x2) ∧
      0 < v2 ∧ v2 < 0.9 * v1 ∧ 1e-2 * |x2| < |x2 - x1| := by
  obtain ⟨v1, c, mu, hpos, hc0, hc1, _, a, b, _, _⟩ := mader_witness
  refine ⟨exLava (10 ^ 4) (.mader 1) .ryerson, exTerrain (10 ^ 4), exState 0.495 1, v1, 3 * v1 / 1,
    c * v1, 3 * (c * v1) / 1, a, b, by positivity, by nlinarith, ?_⟩
  rw [abs_of_pos (by positivity), abs_of_neg (by nlinarith)]
  nlinarith

/-- **C35**. The basal shear stress is depth * density * gravity * sin(slope), density being
    dre * (1 - vesicle fraction), whatever the yield-strength model (`l` is arbitrary); it is computed iff
    the slope is. -/
theorem C35_basal_stress_law (l : Lava ℝ) (t : Terrain ℝ) (s : FlowState ℝ) (b : ℝ) :
    l.basalStress t s = .ok b ↔ ∃ sl, t.slope s.pos = .ok sl ∧
      b = basalShear t.depth (l.densityDre * (1 - l.ves.fraction s)) t.gravity sl := by
  unfold Lava.basalStress
  rw [bind_ok_iff]
  simp only [pure_ok_iff, sin_real, basalShear, Lava.density, Lava.vesicleFraction]
  have : (1.0 : ℝ) = 1 := by norm_num
  simp only [this, eq_comm (b := b)]

/-- **C35**. It is positive for positive depth, density and gravity and a slope in (0, pi), it does not depend
    on the yield-strength model, and it scales linearly with the depth. -/
theorem C35_basal_stress_positive_linear (l : Lava ℝ) (t : Terrain ℝ) (s : FlowState ℝ) (b sl : ℝ)
    (h : l.basalStress t s = .ok b) (hsl : t.slope s.pos = .ok sl) :
    (0 < t.depth → 0 < l.density s → 0 < t.gravity → 0 < sl → sl < Real.pi → 0 < b) ∧
    (∀ y, ({ l with yld := y } : Lava ℝ).basalStress t s = .ok b) ∧
    (∀ a, l.basalStress { t with depth := a * t.depth } s = .ok (a * b)) := by
  obtain ⟨sl', h', hb⟩ := (C35_basal_stress_law l t s b).mp h
  rw [hsl] at h'; injection h' with h'; subst h'
  refine ⟨?_, fun y => h, ?_⟩
  · intro h1 h2 h3 h4 h5
    have h6 := Real.sin_pos_of_pos_of_lt_pi h4 h5
    rw [hb]
    unfold basalShear
    have : 0 < l.densityDre * (1 - l.ves.fraction s) := by
      have e : (1.0 : ℝ) = 1 := by norm_num
      simpa [Lava.density, Lava.vesicleFraction, e] using h2
    positivity
  · intro a
    rw [C35_basal_stress_law]
    exact ⟨sl, hsl, by rw [hb]; simp only [basalShear]; ring⟩

/-- **C36**. The yield check answers, it answers True iff tho_0 >= tho_b, and it is computed iff the two
    stresses are. -/
theorem C36_yield_check (l : Lava ℝ) (t : Terrain ℝ) (s : FlowState ℝ) (r : Bool) :
    l.yieldNotCompatible t s = .ok r ↔ ∃ tho0 thob, l.yieldStrength s = .ok tho0 ∧
      l.basalStress t s = .ok thob ∧ (r = true ↔ tho0 ≥ thob) := by
  unfold Lava.yieldNotCompatible
  rw [bind_ok_iff]
  refine exists_congr fun t0 => ?_
  rw [bind_ok_iff]
  simp only [pure_ok_iff]
  constructor
  · rintro ⟨h0, tb, hb, hr⟩
    exact ⟨tb, h0, hb, by rw [← hr, leB_real]⟩
  · rintro ⟨tb, h0, hb, hr⟩
    refine ⟨h0, tb, hb, ?_⟩
    rw [Bool.eq_iff_iff, leB_real, hr]

/-- **C36**. The same two numbers enter the velocity: when the check answers, the velocity computed for the same
    state is the Bingham law of two stresses whose order is the answer. -/
theorem C36_same_numbers_as_velocity (l : Lava ℝ) (t : Terrain ℝ) (s : FlowState ℝ) (r : Bool) (v x : ℝ)
    (h : l.yieldNotCompatible t s = .ok r) (hv : l.meanVelocity t s = .ok (v, x)) :
    ∃ tho0 thob visc, v = binghamVelocity t.depth thob visc tho0 ∧ (r = true ↔ thob ≤ tho0) := by
  obtain ⟨t0, tb, h0, hb, hr⟩ := (C36_yield_check l t s r).mp h
  obtain ⟨t0', tb', mu, h0', hb', _, e⟩ := C17_velocity_is_bingham l t s v x hv
  rw [h0] at h0'; rw [hb] at hb'; cases h0'; cases hb'
  exact ⟨t0, tb, mu, e, hr⟩

/-! ### The hypotheses are met -/

/-- C17/C21/C22/C36: a lava of viscosity 1 without yield strength under a basal stress of 3 Pa. -/
theorem ex_moving : (exLava 1 .er .ryerson).meanVelocity (exTerrain 3) (exState 0 0) = .ok (1, 3) := by
  rw [meanVelocity_ok_iff]
  exact ⟨0, 3, 1 * 1, ryerson_zero 0, exLava_basal 3 1 .er .ryerson _, exLava_bulk 1 0 0 1 .er .ryerson (er_zero 0),
    by norm_num, by norm_num, by norm_num [exTerrain], by norm_num [binghamVelocity, exTerrain],
    by norm_num [exTerrain]⟩
/-- C18 (first part): the same terrain and viscosity with and without yield strength. -/
example : ∃ (l l' : Lava ℝ) (t : Terrain ℝ) (s : FlowState ℝ) (v x v' x' tho0' : ℝ),
    l.meanVelocity t s = .ok (v, x) ∧ l'.meanVelocity t s = .ok (v', x') ∧
    l.yieldStrength s = .ok 0 ∧ l'.yieldStrength s = .ok tho0' ∧ 0 < tho0' ∧ tho0' ≤ 3 ∧
    l.basalStress t s = .ok 3 ∧ l'.basalStress t s = .ok 3 ∧
    l.bulkViscosity s = .ok 1 ∧ l'.bulkViscosity s = .ok 1 := by
  have hd : (YieldModel.dragoniAlone 1000 : YieldModel ℝ).strength (exState 0 0) = .ok (0.01 * Real.exp (-1)) := by
    simp [YieldModel.strength, dragoniTerm, exState]; norm_num
  have hm := fun y => exLava_bulk 1 0 0 1 .er y (er_zero 0)
  have e1 : Real.exp (-1) ≤ 1 := Real.exp_le_one_iff.mpr (by norm_num)
  have e0 := Real.exp_pos (-1)
  refine ⟨_, exLava 1 .er (.dragoniAlone 1000), _, _, _, _, _, _, _, ex_moving,
    (meanVelocity_ok_iff _ _ _ _ _).mpr ⟨_, _, _, hd, exLava_basal 3 1 .er _ _, hm _, by norm_num, by norm_num,
      by norm_num [exTerrain], rfl, rfl⟩, ryerson_zero 0, hd, by positivity, by nlinarith,
    exLava_basal 3 1 .er _ _, exLava_basal 3 1 .er _ _, ?_, ?_⟩
  · rw [hm]; norm_num
  · rw [hm]; norm_num
example : StrainIndependent (exLava 1 .er .ryerson) :=
  C22_which_models_are_strain_independent _ (by intros; simp [exLava]) (by intros; simp [exLava])
    (by intros; simp [exLava])
example : (exTerrain 3).slope (exState 0 0).pos = .ok (Real.pi / 2) := rfl

end PyFlowGo
