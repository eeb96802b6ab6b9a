import Verif.Props.RelVisc
/-
  C34: yield strength.  C38: vesicle fraction and density.
-/
namespace PyFlowGo
open Spec

theorem ryersonTerm_of_nonneg {φ : ℝ} (h : 0 ≤ φ) : ryersonTerm φ = .ok (yieldRyerson φ) := by
  unfold ryersonTerm yieldRyerson
  rw [pow_of_nonneg h (by norm_num), ok_bind, pure_eq_ok]
  norm_num

theorem dragoniTerm_eq (a b : ℝ) : dragoniTerm a b = yieldDragoni a b := by
  unfold dragoniTerm yieldDragoni
  rw [exp_real, one_lit]

/-- **C34**, the laws: for crystal fraction >= 0 every model computes its law. -/
theorem C34_yield_laws (m : YieldModel ℝ) (s : FlowState ℝ) (h : 0 ≤ s.crystal) :
    m.strength s = .ok (yieldLaw s m) := by
  cases m <;> unfold YieldModel.strength yieldLaw <;> dsimp only
  · rw [ryersonTerm_of_nonneg h, ok_bind, pure_eq_ok, dragoniTerm_eq]
  · rw [ryersonTerm_of_nonneg h, ok_bind, pure_eq_ok, dragoniTerm_eq]
  · rw [dragoniTerm_eq]
  · exact ryersonTerm_of_nonneg h
  · rw [mpow_of_pos _ (by norm_num), ok_bind, mpow_of_pos _ (by norm_num), ok_bind, pure_eq_ok]
    unfold yieldBll
    norm_num

/-- **C34**. For crystal fraction >= 0 the yield strength is computed and >= 0, and it is 0 only for Ryerson
    without crystals. -/
theorem C34_yield_nonneg (m : YieldModel ℝ) (s : FlowState ℝ) (h : 0 ≤ s.crystal) :
    ∃ t, m.strength s = .ok t ∧ 0 ≤ t ∧ (t = 0 ↔ m = .ryerson ∧ s.crystal = 0) := by
  refine ⟨_, C34_yield_laws m s h, ?_⟩
  have hr : 0 ≤ yieldRyerson s.crystal := by unfold yieldRyerson; positivity
  have hd : ∀ a b, 0 < yieldDragoni a b := by intro a b; unfold yieldDragoni; positivity
  cases m <;> simp only [yieldLaw, reduceCtorEq, false_and, iff_false, true_and]
  · rename_i te; have := hd te s.temp; exact ⟨by linarith, by linarith⟩
  · rename_i te; have := hd te s.temp; exact ⟨by linarith, by linarith⟩
  · rename_i te; have := hd te s.temp; exact ⟨by linarith, by linarith⟩
  · refine ⟨hr, ?_⟩
    unfold yieldRyerson
    constructor
    · intro he
      have : s.crystal ^ (2.85 : ℝ) = 0 := by linarith
      exact (Real.rpow_eq_zero h (by norm_num)).mp this
    · intro he; rw [he, Real.zero_rpow (by norm_num)]; norm_num
  · unfold yieldBll
    have h1 : (0:ℝ) < 10 ^ (80 * (s.crystal - 0.35)) := by positivity
    have h2 : ∀ v : ℝ, (0:ℝ) < 10 ^ (1.98 * (s.crystal + v - 0.35)) := by intro v; positivity
    rename_i ves
    have := h2 (ves.fraction s)
    exact ⟨by linarith, by linarith⟩

/-- **C34**. At a given position, a cooler and more crystallised parcel has at least the yield strength. -/
theorem C34_yield_grows (m : YieldModel ℝ) (s s' : FlowState ℝ) (h : 0 ≤ s.crystal)
    (hc : s.crystal ≤ s'.crystal) (hT : s'.temp ≤ s.temp) (hp : s'.pos = s.pos) (t t' : ℝ)
    (ht : m.strength s = .ok t) (ht' : m.strength s' = .ok t') : t ≤ t' := by
  rw [C34_yield_laws m s h] at ht
  rw [C34_yield_laws m s' (h.trans hc)] at ht'
  injection ht with ht; injection ht' with ht'
  rw [← ht, ← ht']
  have hr : yieldRyerson s.crystal ≤ yieldRyerson s'.crystal := by
    unfold yieldRyerson
    have := Real.rpow_le_rpow h hc (show (0:ℝ) ≤ 2.85 by norm_num)
    linarith
  have hd : ∀ a, yieldDragoni a s.temp ≤ yieldDragoni a s'.temp := by
    intro a; unfold yieldDragoni
    apply mul_le_mul_of_nonneg_left _ (by norm_num)
    apply Real.exp_le_exp.mpr
    linarith
  have hves : ∀ ves : VesicleModel ℝ, ves.fraction s' = ves.fraction s := by
    intro ves; cases ves <;> simp only [VesicleModel.fraction, hp]
  cases m <;> simp only [yieldLaw]
  · linarith [hd ‹ℝ›]
  · rename_i a; linarith [hd a]
  · rename_i a; exact hd a
  · exact hr
  · rename_i ves
    rw [hves]
    unfold yieldBll
    have h1 : (10:ℝ) ^ (80 * (s.crystal - 0.35)) ≤ 10 ^ (80 * (s'.crystal - 0.35)) :=
      Real.rpow_le_rpow_of_exponent_le (by norm_num) (by linarith)
    have h2 : (10:ℝ) ^ (1.98 * (s.crystal + ves.fraction s - 0.35)) ≤
        10 ^ (1.98 * (s'.crystal + ves.fraction s - 0.35)) :=
      Real.rpow_le_rpow_of_exponent_le (by norm_num) (by linarith)
    linarith

/-- A non-trivial pair of states for C34. -/
example : (0:ℝ) ≤ (exState 0.1 0).crystal ∧ (exState 0.1 0).crystal < (exState 0.2 0).crystal := by
  norm_num [exState]

/-! ### C38 -/

/-- **C38**. constant and bimodal return the configured values, bimodal switching strictly after the critical
    distance; variable and poly follow their formula clamped at zero; variable_bimodal follows the linear law up
    to the critical distance and is constant afterwards, without clamping. -/
theorem C38_vesicle_laws (s : FlowState ℝ) :
    (∀ v, (VesicleModel.constant v).fraction s = v) ∧
    (∀ d v1 v2, (VesicleModel.bimodal d v1 v2).fraction s = if s.pos ≤ d then v1 else v2) ∧
    (∀ v c, (VesicleModel.variable v c).fraction s = max 0 (v - c * s.pos)) ∧
    (∀ d v c, (VesicleModel.variableBimodal d v c).fraction s = v - c * min s.pos d) ∧
    (∀ v a b, (VesicleModel.poly v a b).fraction s = max 0 (v + b * (s.pos + 1) + a * s.pos ^ 2)) := by
  have z : (0.0 : ℝ) = 0 := by norm_num
  refine ⟨fun _ => rfl, ?_, ?_, ?_, ?_⟩
  · intro d v1 v2
    simp only [VesicleModel.fraction, leB_real]
  · intro v c
    simp only [VesicleModel.fraction, leB_real, z]
    split
    · rename_i h; rw [max_eq_left h]
    · rename_i h; rw [max_eq_right (not_le.mp h).le]
  · intro d v c
    simp only [VesicleModel.fraction, leB_real]
    split
    · rename_i h; rw [min_eq_left h]
    · rename_i h; rw [min_eq_right (not_le.mp h).le]
  · intro v a b
    simp only [VesicleModel.fraction, leB_real, z, one_lit, npow_real]
    split
    · rename_i h; rw [max_eq_left h]
    · rename_i h; rw [max_eq_right (not_le.mp h).le]

/-- **C38**. With non-negative configured fractions every model but variable_bimodal gives a non-negative fraction
    everywhere. -/
theorem C38_nonneg_except_variable_bimodal (s : FlowState ℝ) (m : VesicleModel ℝ)
    (h1 : ∀ v, m = .constant v → 0 ≤ v) (h2 : ∀ d v1 v2, m = .bimodal d v1 v2 → 0 ≤ v1 ∧ 0 ≤ v2)
    (h3 : ∀ d v c, m ≠ .variableBimodal d v c) : 0 ≤ m.fraction s := by
  obtain ⟨_, e2, e3, _, e5⟩ := C38_vesicle_laws s
  cases m with
  | constant v => exact h1 v rfl
  | bimodal d v1 v2 => rw [e2]; split; exacts [(h2 d v1 v2 rfl).1, (h2 d v1 v2 rfl).2]
  | «variable» v c => rw [e3]; exact le_max_left _ _
  | variableBimodal d v c => exact absurd rfl (h3 d v c)
  | poly v a b => rw [e5]; exact le_max_left _ _

/-- **C38**. variable_bimodal gives a negative fraction at every position beyond v/c when the critical distance
    lies beyond v/c too (c > 0): it is not clamped. -/
theorem C38_variable_bimodal_goes_negative (d v c : ℝ) (hc : 0 < c) (hd : v / c < d) (s : FlowState ℝ)
    (hs : v / c < s.pos) : (VesicleModel.variableBimodal d v c).fraction s < 0 := by
  rw [(C38_vesicle_laws s).2.2.2.1]
  have h := lt_min hs hd
  rw [div_lt_iff₀ hc] at h
  linarith

/-- **C38**. The bulk density is dre * (1 - vesicle fraction), positive for a positive dre density and a vesicle
    fraction below one, and above the dre density exactly when the vesicle fraction is negative. -/
theorem C38_density (l : Lava ℝ) (s : FlowState ℝ) (h : 0 < l.densityDre) :
    l.density s = l.densityDre * (1 - l.ves.fraction s) ∧
    (0 < l.density s ↔ l.ves.fraction s < 1) ∧ (l.densityDre < l.density s ↔ l.ves.fraction s < 0) := by
  have e : l.density s = l.densityDre * (1 - l.ves.fraction s) := by
    unfold Lava.density Lava.vesicleFraction; rw [one_lit]
  refine ⟨e, ?_, ?_⟩
  · rw [e, mul_pos_iff_of_pos_left h]; constructor <;> intro h' <;> linarith
  · rw [e]; constructor <;> intro h' <;> nlinarith

example : (VesicleModel.variableBimodal 1000 0.2 0.001 : VesicleModel ℝ).fraction
    { exState 0 0 with pos := 500 } < 0 :=
  C38_variable_bimodal_goes_negative _ _ _ (by norm_num) (by norm_num) _ (by norm_num)

end PyFlowGo
