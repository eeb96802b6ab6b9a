import Verif.Proofs.RoundVelocity
import Verif.Proofs.RoundFlow
import Mathlib.Analysis.Real.Pi.Bounds
/-
  C130: the velocity in rounded arithmetic, near the yield point and away from it.
-/
set_option linter.unusedSectionVars false
namespace PyFlowGo
open Spec Rounded

/-- The parts of a velocity call. -/
theorem round_velocity_parts {rd : ℝ → ℝ} (R : Rounding rd) (l : Lava (Rounded rd)) (t : Terrain (Rounded rd))
    (s : FlowState (Rounded rd)) (v x : Rounded rd) (h : l.meanVelocity t s = .ok (v, x)) :
    ∃ tho0 thob visc, l.yieldStrength s = .ok tho0 ∧ l.basalStress t s = .ok thob ∧ l.bulkViscosity s = .ok visc ∧
      velocityFormula t.depth thob visc tho0 = .ok v := by
  rw [rounded_meanVelocity R] at h
  obtain ⟨t0, h1, h⟩ := bind_ok_iff.mp h
  obtain ⟨tb, h2, h⟩ := bind_ok_iff.mp h
  unfold velocityPass at h
  obtain ⟨mu, h3, h⟩ := bind_ok_iff.mp h
  obtain ⟨v', h4, h⟩ := bind_ok_iff.mp h
  obtain ⟨ns, _, h⟩ := bind_ok_iff.mp h
  rw [pure_ok_iff, Prod.mk.injEq] at h
  exact ⟨t0, tb, mu, h1, h2, h3, by rw [h4, h.1]⟩

section
variable {rd : ℝ → ℝ} {u : ℝ} (R : Rounding rd) (h0 : 0 ≤ u) (h1 : u ≤ 1 / 1000) (hA : Accurate u 0 rd)
  (hx : PlainNumbers rd)
include R h0 h1 hA hx

/-- **C130**. What `compute_mean_velocity` returns is the Bingham velocity of the yield strength, basal stress and viscosity
    it computed, up to 12 roundings of the Newtonian velocity `depth tho_b / (3 viscosity)`. -/
theorem C130_velocity_error (l : Lava (Rounded rd)) (t : Terrain (Rounded rd)) (s : FlowState (Rounded rd)) (v x : Rounded rd)
    (h : l.meanVelocity t s = .ok (v, x)) :
    ∃ tho0 thob visc, l.yieldStrength s = .ok tho0 ∧ l.basalStress t s = .ok thob ∧ l.bulkViscosity s = .ok visc ∧
      (0 ≤ val tho0 → val tho0 ≤ val thob → 0 < val thob → 0 < val visc → 0 ≤ val t.depth →
        |val v - binghamVelocity (val t.depth) (val thob) (val visc) (val tho0)| ≤
          12 * u * (val t.depth * val thob / (3 * val visc))) := by
  obtain ⟨tho0, thob, visc, e1, e2, e3, e4⟩ := round_velocity_parts R l t s v x h
  refine ⟨tho0, thob, visc, e1, e2, e3, fun hy hle hb hm hd => ?_⟩
  obtain ⟨_, hv⟩ := round_formula hx _ _ _ _ _ e4
  have hq0 : 0 ≤ val tho0 / val thob := div_nonneg hy hb.le
  have hq1 : val tho0 / val thob ≤ 1 := (div_le_one hb).mpr hle
  have b := round_bracket h0 h1 hA hq0 hq1
  have a := round_prefactor h0 h1 hA hd hb hm
  rw [hv]
  unfold binghamVelocity
  set N := val t.depth * val thob / (3 * val visc) with hN
  set q := val tho0 / val thob with hq
  set A := rd (rd (val t.depth * val thob) / rd (3 * val visc)) with hAA
  set B := rd (rd (1 - rd (3 / 2 * rd q)) + rd (1 / 2 * rd (rd q ^ 3))) with hB
  set F := 1 - 3 / 2 * q + 1 / 2 * q ^ 3 with hF
  have hN0 : 0 ≤ N := by rw [hN]; positivity
  have hF0 : 0 ≤ F := by rw [hF, bingham_factor]; positivity
  have hF1 : F ≤ 1 := by
    have : q ^ 3 ≤ q := by nlinarith [mul_nonneg hq0 (sub_nonneg.mpr hq1), mul_nonneg (mul_nonneg hq0 hq0) (sub_nonneg.mpr hq1)]
    rw [hF]; linarith
  have uu : u * u ≤ u * (1 / 1000) := mul_le_mul_of_nonneg_left h1 h0
  have hBabs : |B| ≤ 1.01 := by
    have := abs_le.mp b
    rw [abs_le]; constructor <;> linarith
  have key : |A * B - N * F| ≤ 10.62 * u * N := by
    rw [show A * B - N * F = (A - N) * B + N * (B - F) by ring]
    calc |(A - N) * B + N * (B - F)| ≤ |(A - N) * B| + |N * (B - F)| := abs_add_le _ _
      _ = |A - N| * |B| + N * |B - F| := by rw [abs_mul, abs_mul, abs_of_nonneg hN0]
      _ ≤ 3.02 * u * N * 1.01 + N * (7.55 * u) :=
        add_le_add (mul_le_mul a hBabs (abs_nonneg _) (by positivity)) (mul_le_mul_of_nonneg_left b hN0)
      _ ≤ 10.62 * u * N := by nlinarith [mul_nonneg h0 hN0]
  have fin := round_near h0 h1 hA key (M := N) (by rw [abs_of_nonneg (mul_nonneg hN0 hF0)]; nlinarith)
  refine fin.trans ?_
  have := mul_le_mul_of_nonneg_right uu hN0
  nlinarith [mul_nonneg h0 hN0]

/-- **C130**. The computed velocity is positive as soon as the yield strength is below the basal stress by more than
    `sqrt (8 u)` of it: 3e-8 for doubles. -/
theorem C130_moves_below_yield (l : Lava (Rounded rd)) (t : Terrain (Rounded rd)) (s : FlowState (Rounded rd)) (v x : Rounded rd)
    (h : l.meanVelocity t s = .ok (v, x)) :
    ∃ tho0 thob visc, l.yieldStrength s = .ok tho0 ∧ l.basalStress t s = .ok thob ∧ l.bulkViscosity s = .ok visc ∧
      (0 ≤ val tho0 → val tho0 ≤ val thob → 0 < val visc → 0 < val t.depth →
        8 * u * val thob ^ 2 < (val thob - val tho0) ^ 2 → 0 < val v) := by
  obtain ⟨tho0, thob, visc, e1, e2, e3, e4⟩ := round_velocity_parts R l t s v x h
  refine ⟨tho0, thob, visc, e1, e2, e3, fun hy hle hm hd hgap => ?_⟩
  obtain ⟨hne, hv⟩ := round_formula hx _ _ _ _ _ e4
  have hb : 0 < val thob := lt_of_le_of_ne (hy.trans hle) (Ne.symm hne)
  have hq0 : 0 ≤ val tho0 / val thob := div_nonneg hy hb.le
  have hq1 : val tho0 / val thob ≤ 1 := (div_le_one hb).mpr hle
  have b := (abs_le.mp (round_bracket h0 h1 hA hq0 hq1)).1
  have a := (abs_le.mp (round_prefactor h0 h1 hA hd.le hb hm)).1
  have hN : 0 < val t.depth * val thob / (3 * val visc) := by positivity
  have hApos : 0 < rd (rd (val t.depth * val thob) / rd (3 * val visc)) := by nlinarith
  have hg : 8 * u < (1 - val tho0 / val thob) ^ 2 := by
    have e : (1 - val tho0 / val thob) ^ 2 = (val thob - val tho0) ^ 2 / val thob ^ 2 := by field_simp
    rw [e, lt_div_iff₀ (by positivity)]
    exact hgap
  have hF : (1 - val tho0 / val thob) ^ 2 ≤ 1 - 3 / 2 * (val tho0 / val thob) + 1 / 2 * (val tho0 / val thob) ^ 3 := by
    rw [bingham_factor]
    nlinarith [sq_nonneg (1 - val tho0 / val thob)]
  have hBpos : 0 < rd (rd (1 - rd (3 / 2 * rd (val tho0 / val thob))) + rd (1 / 2 * rd (rd (val tho0 / val thob) ^ 3))) := by
    linarith
  have hprod := mul_pos hApos hBpos
  have e := (abs_le.mp (hA (rd (rd (val t.depth * val thob) / rd (3 * val visc)) *
    rd (rd (1 - rd (3 / 2 * rd (val tho0 / val thob))) + rd (1 / 2 * rd (rd (val tho0 / val thob) ^ 3)))))).1
  rw [abs_of_pos hprod, ← hv] at e
  nlinarith

/-- **C130**. In a run: after an accepted step that did not end the run the yield strength is below the basal stress, and if it
    is below by more than `sqrt (8 u)` of it, the velocity of the next step is positive: the run does not end because the
    velocity reached zero. -/
theorem C130_next_step_moves (g : Integrator (Rounded rd)) (w w' : World (Rounded rd)) (h : AcceptedStep g w w')
    (hnf : w'.finished = false) (hdepth : 0 < val w.terrain.depth) (v x : Rounded rd)
    (hv : g.models.lava.meanVelocity w'.terrain w'.st = .ok (v, x)) :
    ∃ tho0 thob visc, g.models.lava.yieldStrength w'.st = .ok tho0 ∧ g.models.lava.basalStress w'.terrain w'.st = .ok thob ∧
      g.models.lava.bulkViscosity w'.st = .ok visc ∧ val tho0 < val thob ∧
      (0 ≤ val tho0 → 0 < val visc → 8 * u * val thob ^ 2 < (val thob - val tho0) ^ 2 → 0 < val v) := by
  obtain ⟨A⟩ := roundStep h
  obtain ⟨tho0, thob, visc, e1, e2, e3, e4⟩ := C130_moves_below_yield R h0 h1 hA hx _ _ _ v x hv
  have hlt : val tho0 < val thob := by
    have hs := A.stop hnf
    unfold stopTest at hs
    split at hs
    · cases hs
    obtain ⟨nc, _, hs⟩ := bind_ok_iff.mp hs
    split at hs
    · rw [pure_ok_iff] at hs; cases hs
    obtain ⟨yc, hy, hs⟩ := bind_ok_iff.mp hs
    split at hs
    · rw [pure_ok_iff] at hs; cases hs
    rename_i hyc
    rw [← A.terrain] at hy
    unfold Lava.yieldNotCompatible at hy
    rw [e1, ok_bind, e2, ok_bind, pure_ok_iff] at hy
    rw [← hy, Bool.not_eq_true, leB_false] at hyc
    exact hyc
  exact ⟨tho0, thob, visc, e1, e2, e3, hlt, fun a b c => e4 a hlt.le b (by rw [A.terrain]; exact hdepth) c⟩

end

end PyFlowGo
