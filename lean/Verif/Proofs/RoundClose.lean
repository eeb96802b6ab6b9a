import Verif.Proofs.RoundLemmas
/-
  Counting relative errors: the algebra of `Close`.
-/
set_option linter.unusedSectionVars false
namespace PyFlowGo
open Spec Rounded

namespace Spec.Close
variable {u : ℝ} (h0 : 0 ≤ u) (h1 : u < 1)

theorem refl (x : ℝ) : Close u 0 x x := ⟨1, by simp, by simp, by simp⟩

include h0 h1
theorem factor_pos {k : Nat} {θ : ℝ} (h : (1 - u) ^ k ≤ θ) : 0 < θ := lt_of_lt_of_le (pow_pos (by linarith) k) h

/-- Rounding costs one relative error. -/
theorem round {rd : ℝ → ℝ} (hA : Accurate u 0 rd) (x : ℝ) : Close u 1 x (rd x) := by
  by_cases hx : x = 0
  · subst hx
    have := hA 0
    simp only [sub_zero, abs_zero, mul_zero, add_zero] at this
    have : rd 0 = 0 := abs_eq_zero.mp (le_antisymm this (abs_nonneg _))
    exact ⟨1, by rw [pow_one]; linarith, by rw [pow_one]; linarith, by rw [this]; ring⟩
  · have h := hA x
    rw [add_zero] at h
    have e : |rd x / x - 1| ≤ u := by
      have : rd x / x - 1 = (rd x - x) / x := by field_simp
      rw [this, abs_div, div_le_iff₀ (abs_pos.mpr hx)]
      exact h
    rw [abs_le] at e
    refine ⟨rd x / x, by rw [pow_one]; linarith [e.1], ?_, by field_simp⟩
    rw [pow_one]
    have : rd x / x ≤ 1 + u := by linarith [e.2]
    nlinarith

theorem mul {j k : Nat} {x y x' y' : ℝ} (hx : Close u j x x') (hy : Close u k y y') : Close u (j + k) (x * y) (x' * y') := by
  obtain ⟨a, a1, a2, rfl⟩ := hx
  obtain ⟨b, b1, b2, rfl⟩ := hy
  have ha := factor_pos h0 h1 a1
  have hb := factor_pos h0 h1 b1
  have hj : 0 < (1 - u) ^ j := pow_pos (by linarith) j
  have hk : 0 < (1 - u) ^ k := pow_pos (by linarith) k
  refine ⟨a * b, ?_, ?_, by ring⟩
  · rw [pow_add]; exact mul_le_mul a1 b1 hk.le ha.le
  · rw [pow_add]
    calc a * b * ((1 - u) ^ j * (1 - u) ^ k) = (a * (1 - u) ^ j) * (b * (1 - u) ^ k) := by ring
      _ ≤ 1 * 1 := mul_le_mul a2 b2 (mul_nonneg hb.le hk.le) zero_le_one
      _ = 1 := by ring

theorem inv {k : Nat} {y y' : ℝ} (hy : Close u k y y') : Close u k y⁻¹ y'⁻¹ := by
  obtain ⟨b, b1, b2, rfl⟩ := hy
  have hb := factor_pos h0 h1 b1
  have hk : 0 < (1 - u) ^ k := pow_pos (by linarith) k
  refine ⟨b⁻¹, ?_, ?_, by rw [mul_inv]⟩
  · rw [le_inv_comm₀ hk hb, ← one_div, le_div_iff₀ hk]; exact b2
  · rw [inv_mul_le_iff₀ hb, mul_one]; exact b1

theorem div {j k : Nat} {x y x' y' : ℝ} (hx : Close u j x x') (hy : Close u k y y') : Close u (j + k) (x / y) (x' / y') := by
  rw [div_eq_mul_inv, div_eq_mul_inv]
  exact mul h0 h1 hx (inv h0 h1 hy)

theorem trans {j k : Nat} {x y z : ℝ} (hx : Close u j x y) (hy : Close u k y z) : Close u (j + k) x z := by
  obtain ⟨a, a1, a2, rfl⟩ := hx
  obtain ⟨b, b1, b2, rfl⟩ := hy
  have := mul h0 h1 ⟨a, a1, a2, (one_mul a).symm⟩ ⟨b, b1, b2, (one_mul b).symm⟩
  obtain ⟨c, c1, c2, e⟩ := this
  exact ⟨c, c1, c2, by rw [mul_assoc, e]; ring⟩

theorem symm {k : Nat} {x y : ℝ} (h : Close u k x y) : Close u k y x := by
  obtain ⟨a, a1, a2, rfl⟩ := h
  have ha := factor_pos h0 h1 a1
  obtain ⟨c, c1, c2, e⟩ := inv h0 h1 ⟨a, a1, a2, (one_mul a).symm⟩
  rw [inv_one, one_mul] at e
  exact ⟨c, c1, c2, by rw [← e]; field_simp⟩

/-- Rounding the result of an operation. -/
theorem then_round {rd : ℝ → ℝ} (hA : Accurate u 0 rd) {k : Nat} {x y : ℝ} (h : Close u k x y) : Close u (k + 1) x (rd y) :=
  trans h0 h1 h (round h0 h1 hA y)

/-- The relative error in the usual form. -/
theorem error {k : Nat} {x y : ℝ} (h : Close u k x y) : |y - x| ≤ (1 / (1 - u) ^ k - 1) * |x| := by
  obtain ⟨a, a1, a2, rfl⟩ := h
  have hk : 0 < (1 - u) ^ k := pow_pos (by linarith) k
  have hk1 : (1 - u) ^ k ≤ 1 := pow_le_one₀ (by linarith) (by linarith)
  rw [show x * a - x = (a - 1) * x by ring, abs_mul]
  refine mul_le_mul_of_nonneg_right ?_ (abs_nonneg x)
  rw [abs_le]
  have e : a ≤ 1 / (1 - u) ^ k := by rw [le_div_iff₀ hk]; exact a2
  have e2 : 1 - (1 - u) ^ k ≤ 1 / (1 - u) ^ k - 1 := by
    rw [← sub_nonneg]
    have : 1 / (1 - u) ^ k - 1 - (1 - (1 - u) ^ k) = (1 - (1 - u) ^ k) ^ 2 / (1 - u) ^ k := by field_simp
    rw [this]
    positivity
  exact ⟨by linarith, by linarith⟩

end Spec.Close
end PyFlowGo
