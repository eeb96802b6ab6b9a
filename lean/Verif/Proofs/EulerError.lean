import Mathlib.Analysis.Calculus.MeanValue
import Mathlib.Analysis.Calculus.Deriv.Pow
import Mathlib.Analysis.SpecialFunctions.Exp
import Mathlib.Analysis.SpecialFunctions.Pow.Real
/-
  The error of one explicit Euler step, and its accumulation.
-/
namespace PyFlowGo
open Set

/-- Local truncation error. -/
theorem euler_local {f f' : ℝ → ℝ} {a b M : ℝ} (hd : ∀ x ∈ Icc a b, HasDerivWithinAt f (f' x) (Icc a b) x)
    (hM : ∀ x ∈ Icc a b, ∀ y ∈ Icc a b, |f' x - f' y| ≤ M * |x - y|) {x h : ℝ} (ha : a ≤ x) (hh : 0 ≤ h) (hb : x + h ≤ b) :
    |f (x + h) - f x - f' x * h| ≤ M * h ^ 2 / 2 := by
  have hsub : Icc x (x + h) ⊆ Icc a b := Icc_subset_Icc ha hb
  have hcont : ContinuousOn f (Icc x (x + h)) := fun y hy => ((hd y (hsub hy)).continuousWithinAt).mono hsub
  have := image_norm_le_of_norm_deriv_right_le_deriv_boundary (f := fun y => f y - f x - f' x * (y - x))
    (f' := fun y => f' y - f' x) (a := x) (b := x + h) (B := fun y => M * (y - x) ^ 2 / 2) (B' := fun y => M * (y - x))
    ?_ ?_ ?_ ?_ ?_ (x := x + h) (right_mem_Icc.mpr (by linarith))
  · simpa using this
  · fun_prop
  · intro y hy
    have hy' : y ∈ Ico a b := ⟨ha.trans hy.1, hy.2.trans_le hb⟩
    have h1 : HasDerivWithinAt f (f' y) (Ici y) y :=
      (hd y ⟨hy'.1, hy'.2.le⟩).mono_of_mem_nhdsWithin (Icc_mem_nhdsGE_of_mem hy')
    have h2 : HasDerivWithinAt (fun y => f' x * (y - x)) (f' x) (Ici y) y := by
      simpa using (((hasDerivAt_id y).sub_const x).const_mul (f' x)).hasDerivWithinAt
    exact (h1.sub_const (f x)).sub h2
  · simp
  · intro y
    have h1 : HasDerivAt (fun y : ℝ => (y - x) ^ 2) (2 * (y - x)) y := by
      have := ((hasDerivAt_id y).sub_const x).fun_pow 2
      simpa using this
    have h2 := (h1.const_mul M).div_const 2
    rwa [show M * (2 * (y - x)) / 2 = M * (y - x) by ring] at h2
  · intro y hy
    have h1 := hM y (hsub ⟨hy.1, hy.2.le⟩) x (hsub (left_mem_Icc.mpr (by linarith)))
    rwa [abs_of_nonneg (sub_nonneg.mpr hy.1)] at h1

/-- The accumulated error after `i` steps. -/
noncomputable def eulerBound (K M h : ℝ) (i : ℕ) : ℝ := M * h / (2 * K) * ((1 + K * h) ^ i - 1)

theorem eulerBound_zero (K M h : ℝ) : eulerBound K M h 0 = 0 := by simp [eulerBound]

theorem eulerBound_succ {K M h : ℝ} (hK : 0 < K) (i : ℕ) :
    eulerBound K M h (i + 1) = eulerBound K M h i + h * (K * eulerBound K M h i) + M * h ^ 2 / 2 := by
  unfold eulerBound
  rw [pow_succ]
  field_simp
  ring

theorem eulerBound_le {K M h : ℝ} (hK : 0 < K) (hM : 0 ≤ M) (hh : 0 ≤ h) (i : ℕ) :
    eulerBound K M h i ≤ M * h / (2 * K) * (Real.exp (K * (i * h)) - 1) := by
  unfold eulerBound
  refine mul_le_mul_of_nonneg_left ?_ (by positivity)
  have h1 : (1 + K * h) ^ i ≤ Real.exp (K * h) ^ i :=
    pow_le_pow_left₀ (by positivity) (by linarith [Real.add_one_le_exp (K * h)]) i
  rw [← Real.exp_nat_mul] at h1
  have h2 : (i : ℝ) * (K * h) = K * (i * h) := by ring
  rw [h2] at h1
  linarith

theorem eulerBound_nonneg {K M h : ℝ} (hK : 0 < K) (hM : 0 ≤ M) (hh : 0 ≤ h) (i : ℕ) : 0 ≤ eulerBound K M h i := by
  unfold eulerBound
  have : 1 ≤ (1 + K * h) ^ i := one_le_pow₀ (by nlinarith)
  exact mul_nonneg (by positivity) (by linarith)

/-- The error of one component after one more step. -/
theorem euler_next {K M h e s s' G p p' H : ℝ} (hh : 0 ≤ h) (hs : s' = s + G * h) (he : |s - p| ≤ e)
    (hG : |G - H| ≤ K * e) (hp : |p' - p - H * h| ≤ M * h ^ 2 / 2) :
    |s' - p'| ≤ e + h * (K * e) + M * h ^ 2 / 2 := by
  have e1 : s' - p' = (s - p) + (G - H) * h - (p' - p - H * h) := by rw [hs]; ring
  rw [e1]
  have h1 : |(G - H) * h| ≤ h * (K * e) := by
    rw [abs_mul, abs_of_nonneg hh, mul_comm]; exact mul_le_mul_of_nonneg_left hG hh
  calc _ ≤ |(s - p) + (G - H) * h| + |p' - p - H * h| := abs_sub _ _
    _ ≤ |s - p| + |(G - H) * h| + |p' - p - H * h| := by gcongr; exact abs_add_le _ _
    _ ≤ _ := by linarith

end PyFlowGo
