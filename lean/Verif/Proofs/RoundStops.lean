import Verif.Proofs.RoundFlow
import Verif.Proofs.RoundVelocity
import Mathlib.Analysis.Real.Pi.Bounds
import Mathlib.Analysis.SpecialFunctions.Trigonometric.Bounds
/-
  Evaluating roundings to nearest on given numbers, and a state where doubles stop a flow that the stop criteria let go on.
-/
set_option linter.unusedSectionVars false
namespace PyFlowGo
open Spec Rounded

/-- Rounding to nearest, on a binade. -/
theorem binary_eval {e : ℤ} (k n : ℤ) (x : ℝ) (he : e ≤ k - 52) (h1 : (2 : ℝ) ^ k ≤ x) (h2 : x < (2 : ℝ) ^ (k + 1))
    (hn : |x - n * (2 : ℝ) ^ (k - 52)| < (2 : ℝ) ^ (k - 52) / 2) : binary 53 e x = n * (2 : ℝ) ^ (k - 52) := by
  have hpos : 0 < x := lt_of_lt_of_le (by positivity) h1
  have hl : Int.log 2 x = k := by
    apply le_antisymm
    · have hlow : (2 : ℝ) ^ Int.log 2 x ≤ x := by exact_mod_cast Int.zpow_log_le_self (b := 2) (by norm_num) hpos
      have := (zpow_lt_zpow_iff_right₀ (show (1 : ℝ) < 2 by norm_num)).mp (lt_of_le_of_lt hlow h2)
      omega
    · have : ((2 : ℕ) : ℝ) ^ k ≤ x := by exact_mod_cast h1
      exact (Int.zpow_le_iff_le_log (b := 2) (by norm_num) hpos).mp this
  have hq : quantum 53 e x = (2 : ℝ) ^ (k - 52) := by
    unfold quantum
    rw [hl]
    congr 1
    push_cast
    omega
  have hq0 : (0 : ℝ) < (2 : ℝ) ^ (k - 52) := by positivity
  rw [binary_of_nonneg 53 e hpos.le, binaryPos_eq, hq]
  unfold toMultiple
  have : ⌊x / (2 : ℝ) ^ (k - 52) + 1 / 2⌋ = n := by
    rw [Int.floor_eq_iff]
    obtain ⟨a, b⟩ := abs_lt.mp hn
    have e1 : x / (2 : ℝ) ^ (k - 52) = n + (x - n * (2 : ℝ) ^ (k - 52)) / (2 : ℝ) ^ (k - 52) := by field_simp; ring
    have e2 : -(1 / 2) < (x - n * (2 : ℝ) ^ (k - 52)) / (2 : ℝ) ^ (k - 52) := by rw [lt_div_iff₀ hq0]; linarith
    have e3 : (x - n * (2 : ℝ) ^ (k - 52)) / (2 : ℝ) ^ (k - 52) < 1 / 2 := by rw [div_lt_iff₀ hq0]; linarith
    rw [e1]
    constructor <;> linarith
  rw [this]

/-- 53 significant bits, rounding to nearest, for numbers around 1. -/
structure Nearest53 (rd : ℝ → ℝ) : Prop where
  decent : Decent rd
  eval : ∀ (k n : ℤ) (x : ℝ), -100 ≤ k → (2 : ℝ) ^ k ≤ x → x < (2 : ℝ) ^ (k + 1) →
    |x - n * (2 : ℝ) ^ (k - 52)| < (2 : ℝ) ^ (k - 52) / 2 → rd x = n * (2 : ℝ) ^ (k - 52)

theorem doubles_nearest : Nearest53 (binary 53 (-1074)) where
  decent := doubles_decent
  eval k n x hk := binary_eval k n x (by omega)

theorem unbounded_nearest : Nearest53 (unbounded 53) where
  decent := unbounded_decent
  eval k n x hk h1 h2 hn := by
    rw [← binary_free 53 (min (k - 52) (Int.log 2 |x| - (53 : ℕ) + 1)) (min_le_right _ _)]
    exact binary_eval k n x (min_le_left _ _) h1 h2 hn

section
variable {rd : ℝ → ℝ} (H : Nearest53 rd)
include H

/-- tho_0 / tho_b. -/
theorem near_ratio : rd (2 / (2 + 1 / 2 ^ 50)) = 1 - 1 / 2 ^ 51 := by
  have := H.eval (-1) (2 ^ 53 - 4) (2 / (2 + 1 / 2 ^ 50)) (by norm_num) (by norm_num) (by norm_num)
    (by rw [abs_lt]; constructor <;> norm_num)
  rw [this]; norm_num

theorem near_one : rd (3 / 2 * (1 - 1 / 2 ^ 51)) = 3 / 2 - 3 / 2 ^ 52 := by
  have := H.eval 0 (3 * 2 ^ 51 - 3) (3 / 2 * (1 - 1 / 2 ^ 51)) (by norm_num) (by norm_num) (by norm_num)
    (by rw [abs_lt]; constructor <;> norm_num)
  rw [this]; norm_num

theorem near_two : rd (1 - (3 / 2 - 3 / 2 ^ 52)) = -(1 / 2 - 3 / 2 ^ 52) := by
  have := H.eval (-2) (2 ^ 53 - 12) (1 / 2 - 3 / 2 ^ 52) (by norm_num) (by norm_num) (by norm_num)
    (by rw [abs_lt]; constructor <;> norm_num)
  rw [show (1 : ℝ) - (3 / 2 - 3 / 2 ^ 52) = -(1 / 2 - 3 / 2 ^ 52) by ring, H.decent.rounding.neg, this]; norm_num

theorem near_three : rd ((1 - 1 / 2 ^ 51) ^ 3) = 1 - 3 / 2 ^ 51 := by
  have := H.eval (-1) (2 ^ 53 - 12) ((1 - 1 / 2 ^ 51) ^ 3) (by norm_num) (by norm_num) (by norm_num)
    (by rw [abs_lt]; constructor <;> norm_num)
  rw [this]; norm_num

theorem near_four : rd (1 / 2 * (1 - 3 / 2 ^ 51)) = 1 / 2 - 3 / 2 ^ 52 := by
  have := H.eval (-2) (2 ^ 53 - 12) (1 / 2 * (1 - 3 / 2 ^ 51)) (by norm_num) (by norm_num) (by norm_num)
    (by rw [abs_lt]; constructor <;> norm_num)
  rw [this]; norm_num

/-- The bracket of the velocity formula vanishes although the true one is positive. -/
theorem near_bracket : rd (rd (1 - rd (3 / 2 * rd (2 / (2 + 1 / 2 ^ 50)))) + rd (1 / 2 * rd (rd (2 / (2 + 1 / 2 ^ 50)) ^ 3))) = 0 := by
  rw [near_ratio H, near_one H, near_two H, near_three H, near_four H, neg_add_cancel, H.decent.zero]

/-- The gravity of the witness. -/
theorem near_gravity : rd (2 + 1 / 2 ^ 50) = 2 + 1 / 2 ^ 50 := by
  have := H.eval 1 (2 ^ 52 + 2) (2 + 1 / 2 ^ 50) (by norm_num) (by norm_num) (by norm_num)
    (by rw [abs_lt]; constructor <;> norm_num)
  rw [this]; norm_num

/-- The slope of the witness: its sine rounds to 1. -/
theorem near_sine : rd (Real.sin (3373259426 / 2 ^ 31)) = 1 := by
  have hpi1 := Real.pi_gt_d20
  have hpi2 := Real.pi_lt_d20
  have e : Real.sin (3373259426 / 2 ^ 31) = Real.cos (Real.pi / 2 - 3373259426 / 2 ^ 31) := by rw [Real.cos_pi_div_two_sub]
  have hd : |Real.pi / 2 - 3373259426 / 2 ^ 31| ≤ 1 / 2 ^ 30 := by
    rw [abs_le]; constructor <;> norm_num at * <;> linarith
  have hlow : 1 - 1 / 2 ^ 60 ≤ Real.sin (3373259426 / 2 ^ 31) := by
    rw [e]
    have := Real.one_sub_sq_div_two_le_cos (x := Real.pi / 2 - 3373259426 / 2 ^ 31)
    have hs : (Real.pi / 2 - 3373259426 / 2 ^ 31) ^ 2 ≤ (1 / 2 ^ 30) ^ 2 := by
      rw [← sq_abs]; exact pow_le_pow_left₀ (abs_nonneg _) hd 2
    have : (1 / 2 ^ 30 : ℝ) ^ 2 = 1 / 2 ^ 60 := by norm_num
    linarith [show (0 : ℝ) ≤ 1 / 2 ^ 60 by positivity]
  have h1 := H.decent.rounding.mono hlow
  have h2 := H.decent.rounding.mono (Real.sin_le_one (3373259426 / 2 ^ 31))
  rw [sub_eq_add_neg, H.decent.absorb _ (by rw [abs_neg, abs_of_nonneg (by positivity)])] at h1
  rw [H.decent.one] at h2
  exact le_antisymm h2 h1

end

end PyFlowGo
