import Verif.Proofs.StrainFree
import Verif.Spec.Laws
import Mathlib.Analysis.SpecialFunctions.Pow.Continuity
/-
  C28: melt viscosity.
-/
namespace PyFlowGo
open Spec

/-- **C28**, the laws. Each model computes its published law, and fails exactly at T = 0 (Shaw) and T = C
    (VFT), always with ZeroDivisionError. -/
theorem C28_melt_laws (s : FlowState ℝ) :
    (∀ eta0 te, (MeltModel.basic eta0 te).viscosity s = .ok (meltBasic eta0 te s.temp)) ∧
    (∀ slope, (MeltModel.shaw slope).viscosity s =
      if s.temp = 0 then .error .zeroDiv else .ok (meltShaw slope s.temp)) ∧
    (∀ a b c, (MeltModel.vft a b c).viscosity s =
      if s.temp = c then .error .zeroDiv else .ok (meltVft a b c s.temp)) := by
  refine ⟨fun _ _ => rfl, fun slope => ?_, fun a b c => ?_⟩
  · unfold MeltModel.viscosity; dsimp only
    by_cases h : s.temp = 0
    · rw [if_pos h, h]; simp [div_real]
    · rw [if_neg h, div_of_ne h, ok_bind, div_of_ne (by norm_num), ok_bind, pow_of_pos _ (by norm_num)]
      unfold meltShaw
      norm_num
  · unfold MeltModel.viscosity; dsimp only
    by_cases h : s.temp = c
    · rw [if_pos h, h]; simp [div_real]
    · rw [if_neg h, div_of_ne (sub_ne_zero.mpr h), ok_bind, pow_of_pos _ (by norm_num)]
      unfold meltVft
      norm_num

/-- **C28**. On its domain the melt viscosity is computed and positive. -/
theorem C28_melt_positive (m : MeltModel ℝ) (hm : MeltValid m) (s : FlowState ℝ) (hs : MeltDomain m s.temp) :
    ∃ eta, m.viscosity s = .ok eta ∧ 0 < eta := by
  obtain ⟨h1, h2, h3⟩ := C28_melt_laws s
  cases m with
  | basic e t =>
    have hm : 0 < e := hm
    refine ⟨_, h1 e t, ?_⟩; unfold meltBasic; positivity
  | shaw k =>
    have hs : 0 < s.temp := hs
    refine ⟨meltShaw k s.temp, by rw [h2, if_neg hs.ne'], ?_⟩; unfold meltShaw; positivity
  | vft a b c =>
    have hs : c < s.temp := hs
    refine ⟨meltVft a b c s.temp, by rw [h3, if_neg hs.ne'], ?_⟩; unfold meltVft; positivity

/-- Melt viscosity is positive whenever it is computed (for the basic law with a positive viscosity at
    eruption). -/
theorem melt_pos_of_ok (m : MeltModel ℝ) (hm : MeltValid m) (s : FlowState ℝ) (eta : ℝ)
    (h : m.viscosity s = .ok eta) : 0 < eta := by
  obtain ⟨h1, h2, h3⟩ := C28_melt_laws s
  cases m with
  | basic e t =>
    have hm : 0 < e := hm
    rw [h1] at h; injection h with h; rw [← h]; unfold meltBasic; positivity
  | shaw k =>
    rw [h2] at h; split at h
    · cases h
    · injection h with h; rw [← h]; unfold meltShaw; positivity
  | vft a b c =>
    rw [h3] at h; split at h
    · cases h
    · injection h with h; rw [← h]; unfold meltVft; positivity

/-- **C28**. Hotter melt is strictly less viscous. -/
theorem C28_melt_decreasing (m : MeltModel ℝ) (hm : MeltValid m) (s s' : FlowState ℝ)
    (hs : MeltDomain m s.temp) (hlt : s.temp < s'.temp) (eta eta' : ℝ)
    (h : m.viscosity s = .ok eta) (h' : m.viscosity s' = .ok eta') : eta' < eta := by
  obtain ⟨h1, h2, h3⟩ := C28_melt_laws s
  obtain ⟨h1', h2', h3'⟩ := C28_melt_laws s'
  cases m with
  | basic e t =>
    have hm : 0 < e := hm
    rw [h1] at h; rw [h1'] at h'
    injection h with h; injection h' with h'
    rw [← h, ← h']; unfold meltBasic
    apply mul_lt_mul_of_pos_left _ hm
    apply Real.exp_lt_exp.mpr
    linarith
  | shaw k =>
    have hm : 0 < k := hm
    have hs : 0 < s.temp := hs
    have hs' : 0 < s'.temp := hs.trans hlt
    rw [h2, if_neg hs.ne'] at h; rw [h2', if_neg hs'.ne'] at h'
    injection h with h; injection h' with h'
    rw [← h, ← h']; unfold meltShaw
    apply Real.rpow_lt_rpow_of_exponent_lt (by norm_num)
    have e1 : (10000 : ℝ) / s'.temp < 10000 / s.temp := div_lt_div_of_pos_left (by norm_num) hs hlt
    have e2 : k * (10000 / s'.temp) < k * (10000 / s.temp) := mul_lt_mul_of_pos_left e1 hm
    have e3 : (k * (10000 / s'.temp) - 1.5 * k - 6.4) / 2.303 < (k * (10000 / s.temp) - 1.5 * k - 6.4) / 2.303 :=
      div_lt_div_of_pos_right (by linarith) (by norm_num)
    linarith
  | vft a b c =>
    have hm : 0 < b := hm
    have hs : c < s.temp := hs
    have hs' : c < s'.temp := hs.trans hlt
    rw [h3, if_neg hs.ne'] at h; rw [h3', if_neg hs'.ne'] at h'
    injection h with h; injection h' with h'
    rw [← h, ← h']; unfold meltVft
    apply Real.rpow_lt_rpow_of_exponent_lt (by norm_num)
    have e1 : b / (s'.temp - c) < b / (s.temp - c) := div_lt_div_of_pos_left hm (by linarith) (by linarith)
    linarith

/-- Parameters used by the repository's template (VFT of Etna basalt) and an eruption temperature satisfy the
    hypotheses, likewise Shaw with slope 2.36. -/
example : MeltValid (.vft (-4.52) 5558 582.9) ∧ MeltDomain (.vft (-4.52) 5558 582.9) 1387.15 ∧
    MeltValid (.shaw 2.36) ∧ MeltDomain (.shaw 2.36) 1387.15 := by
  norm_num [MeltValid, MeltDomain]

end PyFlowGo
