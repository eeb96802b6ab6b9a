import Verif.Proofs.RoundClose
import Verif.Spec.RoundVelocity
import Verif.Props.Rounded
/-
  The velocity formula in rounded arithmetic: error bounds.
-/
set_option linter.unusedSectionVars false
namespace PyFlowGo
open Spec Rounded

section
variable {rd : ℝ → ℝ} {u : ℝ} (h0 : 0 ≤ u) (h1 : u ≤ 1 / 1000) (hA : Accurate u 0 rd)
include h0 h1 hA

theorem round_near {x y ε M : ℝ} (h : |y - x| ≤ ε) (hM : |x| ≤ M) : |rd y - x| ≤ ε + u * (M + ε) := by
  have e := hA y
  have hy : |y| ≤ M + ε := by
    calc |y| = |x + (y - x)| := by ring_nf
      _ ≤ |x| + |y - x| := abs_add_le _ _
      _ ≤ M + ε := add_le_add hM h
  calc |rd y - x| = |(rd y - y) + (y - x)| := by ring_nf
    _ ≤ |rd y - y| + |y - x| := abs_add_le _ _
    _ ≤ u * |y| + 0 + ε := add_le_add e h
    _ ≤ ε + u * (M + ε) := by have := mul_le_mul_of_nonneg_left hy h0; linarith

/-- The bracket of the velocity formula. -/
theorem round_bracket {q : ℝ} (hq0 : 0 ≤ q) (hq1 : q ≤ 1) :
    |rd (rd (1 - rd (3 / 2 * rd q)) + rd (1 / 2 * rd (rd q ^ 3))) - (1 - 3 / 2 * q + 1 / 2 * q ^ 3)| ≤ 7.55 * u := by
  have uu : u * u ≤ u * (1 / 1000) := mul_le_mul_of_nonneg_left h1 h0
  have r1 : |rd q - q| ≤ u := by
    have := round_near h0 h1 hA (x := q) (y := q) (ε := 0) (M := 1) (by simp) (by rw [abs_of_nonneg hq0]; exact hq1)
    linarith
  have r2 : |rd (3 / 2 * rd q) - 3 / 2 * q| ≤ 3.01 * u := by
    have := round_near h0 h1 hA (x := 3 / 2 * q) (y := 3 / 2 * rd q) (ε := 1.5 * u) (M := 1.5)
      (by rw [← mul_sub, abs_mul, abs_of_pos (by norm_num : (0:ℝ) < 3 / 2)]; linarith)
      (by rw [abs_of_nonneg (by linarith)]; linarith)
    nlinarith
  have r3 : |rd (1 - rd (3 / 2 * rd q)) - (1 - 3 / 2 * q)| ≤ 4.02 * u := by
    have := round_near h0 h1 hA (x := 1 - 3 / 2 * q) (y := 1 - rd (3 / 2 * rd q)) (ε := 3.01 * u) (M := 1)
      (by rw [show 1 - rd (3 / 2 * rd q) - (1 - 3 / 2 * q) = -(rd (3 / 2 * rd q) - 3 / 2 * q) by ring, abs_neg]; exact r2)
      (by rw [abs_le]; constructor <;> linarith)
    nlinarith
  have hr := abs_le.mp r1
  have r4 : |rd q ^ 3 - q ^ 3| ≤ 3.01 * u := by
    have e : rd q ^ 3 - q ^ 3 = (rd q - q) * (rd q ^ 2 + rd q * q + q ^ 2) := by ring
    have b : |rd q ^ 2 + rd q * q + q ^ 2| ≤ 3.01 := by
      have hs : |rd q| ≤ 1.001 := by rw [abs_le]; constructor <;> linarith
      have h2 : rd q ^ 2 ≤ 1.001 ^ 2 := by rw [← sq_abs]; exact pow_le_pow_left₀ (abs_nonneg _) hs 2
      have h3 := abs_le.mp hs
      rw [abs_le]
      constructor
      · nlinarith [sq_nonneg (rd q + q), sq_nonneg (rd q), sq_nonneg q]
      · nlinarith
    rw [e, abs_mul]
    calc |rd q - q| * |rd q ^ 2 + rd q * q + q ^ 2| ≤ u * 3.01 := mul_le_mul r1 b (abs_nonneg _) h0
      _ = 3.01 * u := by ring
  have hq3 : q ^ 3 ≤ 1 := pow_le_one₀ hq0 hq1
  have hq30 : 0 ≤ q ^ 3 := by positivity
  have r5 : |rd (rd q ^ 3) - q ^ 3| ≤ 4.02 * u := by
    have := round_near h0 h1 hA (x := q ^ 3) (y := rd q ^ 3) (ε := 3.01 * u) (M := 1) r4 (by rw [abs_of_nonneg hq30]; exact hq3)
    nlinarith
  have r6 : |rd (1 / 2 * rd (rd q ^ 3)) - 1 / 2 * q ^ 3| ≤ 2.52 * u := by
    have := round_near h0 h1 hA (x := 1 / 2 * q ^ 3) (y := 1 / 2 * rd (rd q ^ 3)) (ε := 2.01 * u) (M := 0.5)
      (by rw [← mul_sub, abs_mul, abs_of_pos (by norm_num : (0:ℝ) < 1 / 2)]; linarith)
      (by rw [abs_of_nonneg (by linarith)]; linarith)
    nlinarith
  have hF : 1 - 3 / 2 * q + 1 / 2 * q ^ 3 = (1 - q) ^ 2 * (1 + q / 2) := by ring
  have hF0 : 0 ≤ 1 - 3 / 2 * q + 1 / 2 * q ^ 3 := by rw [hF]; positivity
  have := round_near h0 h1 hA (x := 1 - 3 / 2 * q + 1 / 2 * q ^ 3)
    (y := rd (1 - rd (3 / 2 * rd q)) + rd (1 / 2 * rd (rd q ^ 3))) (ε := 6.54 * u) (M := 1)
    (by
      rw [show rd (1 - rd (3 / 2 * rd q)) + rd (1 / 2 * rd (rd q ^ 3)) - (1 - 3 / 2 * q + 1 / 2 * q ^ 3) =
        (rd (1 - rd (3 / 2 * rd q)) - (1 - 3 / 2 * q)) + (rd (1 / 2 * rd (rd q ^ 3)) - 1 / 2 * q ^ 3) by ring]
      exact (abs_add_le _ _).trans (by linarith))
    (by
      have : q ^ 3 ≤ q := by nlinarith [mul_nonneg hq0 (sub_nonneg.mpr hq1), mul_nonneg (mul_nonneg hq0 hq0) (sub_nonneg.mpr hq1)]
      rw [abs_of_nonneg hF0]; linarith)
  nlinarith

/-- The factor in front of the bracket. -/
theorem round_prefactor {d tb mu : ℝ} (hd : 0 ≤ d) (htb : 0 < tb) (hmu : 0 < mu) :
    |rd (rd (d * tb) / rd (3 * mu)) - d * tb / (3 * mu)| ≤ 3.02 * u * (d * tb / (3 * mu)) := by
  have hlt : u < 1 := by linarith
  have hc : Close u 3 (d * tb / (3 * mu)) (rd (rd (d * tb) / rd (3 * mu))) :=
    Close.then_round h0 hlt hA (Close.div h0 hlt (Close.round h0 hlt hA (d * tb)) (Close.round h0 hlt hA (3 * mu)))
  have he := Close.error h0 hlt hc
  have hN : 0 ≤ d * tb / (3 * mu) := by positivity
  rw [abs_of_nonneg hN] at he
  refine he.trans (mul_le_mul_of_nonneg_right ?_ hN)
  have hp : 0 < (1 - u) ^ 3 := pow_pos (by linarith) 3
  rw [sub_le_iff_le_add, div_le_iff₀ hp]
  have a : (1 - u) ^ 3 = 1 - 3 * u + 3 * u ^ 2 - u ^ 3 := by ring
  have u2 : 0 ≤ u ^ 2 := sq_nonneg u
  have u3 : u ^ 3 ≤ u ^ 2 * (1 / 1000) := by
    calc u ^ 3 = u ^ 2 * u := by ring
      _ ≤ _ := mul_le_mul_of_nonneg_left h1 u2
  have u4 : u ^ 2 ≤ u * (1 / 1000) := by
    calc u ^ 2 = u * u := by ring
      _ ≤ _ := mul_le_mul_of_nonneg_left h1 h0
  rw [a]
  have u5 : 0 ≤ u ^ 3 := by positivity
  nlinarith [mul_nonneg h0 u2, mul_nonneg h0 u5]

end

/-- What `velocityFormula` computes. -/
theorem round_formula {rd : ℝ → ℝ} (hx : PlainNumbers rd) (depth tb mu t0 v : Rounded rd)
    (h : velocityFormula depth tb mu t0 = .ok v) :
    val tb ≠ 0 ∧ val v = rd (rd (rd (val depth * val tb) / rd (3 * val mu)) *
      rd (rd (1 - rd (3 / 2 * rd (val t0 / val tb))) + rd (1 / 2 * rd (rd (val t0 / val tb) ^ 3)))) := by
  have e1 : rd 1 = 1 := hx 1 (by simp)
  have e2 : rd 2 = 2 := hx 2 (by simp)
  have e3 : rd 3 = 3 := hx 3 (by simp)
  have e4 : rd (3 / 2) = 3 / 2 := hx (3 / 2) (by simp)
  have e5 : rd (1 / 2) = 1 / 2 := hx (1 / 2) (by simp)
  have l1 : val (1.0 : Rounded rd) = 1 := by rw [val_lit]; norm_num [e1]
  have l2 : val (2.0 : Rounded rd) = 2 := by rw [val_lit]; norm_num [e2]
  have l3 : val (3.0 : Rounded rd) = 3 := by rw [val_lit]; norm_num [e3]
  have l5 : val (0.5 : Rounded rd) = 1 / 2 := by
    rw [val_lit]
    have : (OfScientific.ofScientific 5 true 1 : ℝ) = 1 / 2 := by norm_num
    rw [this, e5]
  unfold velocityFormula at h
  obtain ⟨a, ha, h⟩ := bind_ok_iff.mp h
  obtain ⟨c, hc, h⟩ := bind_ok_iff.mp h
  obtain ⟨r, hr, h⟩ := bind_ok_iff.mp h
  rw [pure_ok_iff] at h
  obtain ⟨_, ha⟩ := Rounded.div_ok.mp ha
  obtain ⟨_, hc⟩ := Rounded.div_ok.mp hc
  obtain ⟨hne, hr⟩ := Rounded.div_ok.mp hr
  rw [val_mul, val_mul, l3] at ha
  rw [l3, l2, e4] at hc
  refine ⟨hne, ?_⟩
  rw [← h, val_mul, val_add, val_sub, val_mul, val_mul, l1, l5, ha, hc]
  show rd (_ * rd (_ + rd (1 / 2 * rd (val r ^ 3)))) = _
  rw [hr]

end PyFlowGo
