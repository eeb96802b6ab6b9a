import Verif.Proofs.RoundFlow
import Verif.Proofs.FineRun
import Verif.Props.RoundedRun
/-
  The flow of `RoundFlow` in exact arithmetic.
-/
set_option linter.unusedSectionVars false
namespace PyFlowGo
open Spec Rounded

noncomputable def exactLava : Lava ℝ :=
  { eruptionT := 1000, buffer := 0, latentHeat := 2 ^ 20, densityDre := 1, melt := .vft 0 0 0, rel := .kd 1 0, bub := .no,
    yld := .dragoniAlone (-2 ^ 20), ves := .constant 0 }

noncomputable def exactTerrain : Terrain ℝ :=
  { effusionRateInit := 0, depth := 1, width := 1, gravity := 1, defaultSlope := 1 / 4, spline := none, maxLength := 2 ^ 80,
    smoothing := false, smoothingPoints := -1 }

noncomputable def exactModels : Models ℝ :=
  { lava := exactLava, air := { temp := 300, windSpeed := 1, ch := 1, rho := 1, cp := 1 }, crust := .constant 500,
    cover := .basic 0 1, cryst := .bimodal 0 0 1 1 0, fluxes := [.rain 1 1 1] }

noncomputable def exactG : Integrator ℝ := { dx := 1, models := exactModels, massConservation := false }

noncomputable def exactWorld : World ℝ :=
  newWorld exactTerrain { crystal := 0, temp := 1000, pos := 0, time := 0, strain := 0 } []

/-- Yield strength and velocity. -/
noncomputable def exactY (T : ℝ) : ℝ := 0.01 * Real.exp (0.08 * (-2 ^ 20 - T) - 1.0)
noncomputable def exactV (T : ℝ) : ℝ := binghamVelocity 1 (Real.sin (1 / 4)) 1 (exactY T)

theorem exact_tau : 1 / 8 ≤ Real.sin (1 / 4) ∧ Real.sin (1 / 4) ≤ 1 := by
  refine ⟨?_, Real.sin_le_one _⟩
  have := Real.sin_gt_sub_cube (x := 1 / 4) (by norm_num)
  norm_num at this ⊢
  linarith

theorem exact_exp {T : ℝ} (hT : 0 ≤ T) : Real.exp (0.08 * (-2 ^ 20 - T) - 1.0) ≤ 1 / 2 ^ 100 := by
  refine le_trans (Real.exp_le_exp.mpr (show _ ≤ -((100 : ℕ) : ℝ) by norm_num; linarith)) ?_
  rw [Real.exp_neg, one_div]
  refine inv_anti₀ (by positivity) ?_
  rw [← Real.exp_one_pow]
  exact pow_le_pow_left₀ (by norm_num) (by linarith [Real.add_one_le_exp (1 : ℝ)]) _

theorem exactY_bounds {T : ℝ} (hT : 0 ≤ T) : 0 ≤ exactY T ∧ exactY T ≤ 1 / 2 ^ 100 := by
  have h := exact_exp hT
  have h2 := (Real.exp_pos (0.08 * (-2 ^ 20 - T) - 1.0)).le
  unfold exactY
  refine ⟨by positivity, ?_⟩
  norm_num at *
  linarith

theorem exact_arith {a b c T S : ℝ} (hc : 0 ≤ c) (hTS : T ≤ S) (hba : b ≤ a) (hac : a ≤ c) (h3 : a * (1 - 8 / 100 * (S - T)) ≤ b) :
    |1 / 100 * a - 1 / 100 * b| ≤ c * |T - S| := by
  rw [← mul_sub, abs_mul, abs_of_nonneg (by linarith : 0 ≤ a - b), abs_of_nonpos (by linarith : T - S ≤ 0), abs_of_pos (by norm_num : (0:ℝ) < 1 / 100)]
  have h4 : a - b ≤ a * (8 / 100 * (S - T)) := by linarith
  have h5 : a * (8 / 100 * (S - T)) ≤ c * (8 / 100 * (S - T)) := mul_le_mul_of_nonneg_right hac (by linarith)
  have h6 : 0 ≤ c * (S - T) := mul_nonneg hc (by linarith)
  linarith

theorem exactY_lipschitz {T S : ℝ} (hT : 0 ≤ T) (hS : 0 ≤ S) : |exactY T - exactY S| ≤ 1 / 2 ^ 100 * |T - S| := by
  have one : ∀ T S : ℝ, 0 ≤ T → T ≤ S → |exactY T - exactY S| ≤ 1 / 2 ^ 100 * |T - S| := by
    intro T S hT hTS
    have hpos := Real.exp_pos (0.08 * (-2 ^ 20 - T) - 1.0)
    have e08 : (0.08 : ℝ) = 8 / 100 := by norm_num
    have e01 : (0.01 : ℝ) = 1 / 100 := by norm_num
    have h2 : Real.exp (0.08 * (-2 ^ 20 - S) - 1.0) ≤ Real.exp (0.08 * (-2 ^ 20 - T) - 1.0) :=
      Real.exp_le_exp.mpr (sub_le_sub_right (mul_le_mul_of_nonneg_left (sub_le_sub_left hTS _) (by norm_num)) _)
    have h3 : Real.exp (0.08 * (-2 ^ 20 - T) - 1.0) * (1 - 8 / 100 * (S - T)) ≤ Real.exp (0.08 * (-2 ^ 20 - S) - 1.0) := by
      have e : Real.exp (0.08 * (-2 ^ 20 - S) - 1.0) = Real.exp (0.08 * (-2 ^ 20 - T) - 1.0) * Real.exp (-(8 / 100 * (S - T))) := by
        rw [← Real.exp_add, e08]; congr 1; generalize (1.0 : ℝ) = o; generalize (-2 ^ 20 : ℝ) = z; ring
      rw [e]
      refine mul_le_mul_of_nonneg_left ?_ hpos.le
      linarith [Real.add_one_le_exp (-(8 / 100 * (S - T)))]
    unfold exactY
    rw [e01]
    exact exact_arith (by positivity) hTS h2 (exact_exp hT) h3
  rcases le_total T S with h | h
  · exact one T S hT h
  · rw [abs_sub_comm, abs_sub_comm T S]; exact one S T hS h

theorem exactV_eq (T : ℝ) : exactV T = Real.sin (1 / 4) / 3 *
    (1 - 3 / 2 * (exactY T / Real.sin (1 / 4)) + 1 / 2 * (exactY T / Real.sin (1 / 4)) ^ 3) := by
  unfold exactV binghamVelocity; norm_num

theorem exactV_near {T : ℝ} (hT : 0 ≤ T) :
    1 - 1 / 2 ^ 96 ≤ 1 - 3 / 2 * (exactY T / Real.sin (1 / 4)) + 1 / 2 * (exactY T / Real.sin (1 / 4)) ^ 3 ∧
    1 - 3 / 2 * (exactY T / Real.sin (1 / 4)) + 1 / 2 * (exactY T / Real.sin (1 / 4)) ^ 3 ≤ 1 := by
  obtain ⟨y0, y1⟩ := exactY_bounds hT
  obtain ⟨t0, t1⟩ := exact_tau
  have tp : 0 < Real.sin (1 / 4) := by linarith
  have q0 : 0 ≤ exactY T / Real.sin (1 / 4) := by positivity
  have q1 : exactY T / Real.sin (1 / 4) ≤ 1 / 2 ^ 97 := by
    rw [div_le_iff₀ tp]
    norm_num at *
    linarith
  generalize exactY T / Real.sin (1 / 4) = q at q0 q1
  have q3 : q ^ 3 ≤ q := by
    have : q ≤ 1 := q1.trans (by norm_num)
    nlinarith [mul_nonneg q0 (sub_nonneg.mpr this), mul_nonneg (mul_nonneg q0 q0) (sub_nonneg.mpr this)]
  have q30 : 0 ≤ q ^ 3 := by positivity
  constructor
  · norm_num at *; linarith
  · linarith

theorem exactV_bounds {T : ℝ} (hT : 0 ≤ T) : 1 / 32 ≤ exactV T ∧ exactV T ≤ 1 / 3 := by
  obtain ⟨t0, t1⟩ := exact_tau
  obtain ⟨a, b⟩ := exactV_near hT
  rw [exactV_eq]
  generalize 1 - 3 / 2 * (exactY T / Real.sin (1 / 4)) + 1 / 2 * (exactY T / Real.sin (1 / 4)) ^ 3 = F at a b
  have a' : 7 / 8 ≤ F := le_trans (by norm_num) a
  constructor <;> nlinarith

theorem exactV_lipschitz {T S : ℝ} (hT : 0 ≤ T) (hS : 0 ≤ S) : |exactV T - exactV S| ≤ 1 / 2 ^ 100 * |T - S| := by
  obtain ⟨t0, t1⟩ := exact_tau
  have tp : 0 < Real.sin (1 / 4) := by linarith
  have hl := exactY_lipschitz hT hS
  obtain ⟨y0, y1⟩ := exactY_bounds hT
  obtain ⟨z0, z1⟩ := exactY_bounds hS
  have e : exactV T - exactV S = (exactY T - exactY S) *
      (-(1 / 2) + 1 / 6 * ((exactY T / Real.sin (1 / 4)) ^ 2 + exactY T / Real.sin (1 / 4) * (exactY S / Real.sin (1 / 4)) + (exactY S / Real.sin (1 / 4)) ^ 2)) := by
    rw [exactV_eq, exactV_eq]; field_simp; ring
  have q0 : 0 ≤ exactY T / Real.sin (1 / 4) := by positivity
  have r0 : 0 ≤ exactY S / Real.sin (1 / 4) := by positivity
  have q1 : exactY T / Real.sin (1 / 4) ≤ 1 := by rw [div_le_one tp]; norm_num at *; linarith
  have r1 : exactY S / Real.sin (1 / 4) ≤ 1 := by rw [div_le_one tp]; norm_num at *; linarith
  rw [e, abs_mul]
  generalize exactY T / Real.sin (1 / 4) = q at q0 q1
  generalize exactY S / Real.sin (1 / 4) = r at r0 r1
  have : |-(1 / 2) + 1 / 6 * (q ^ 2 + q * r + r ^ 2)| ≤ 1 := by
    rw [abs_le]; constructor <;> nlinarith [mul_nonneg q0 r0]
  calc _ ≤ |exactY T - exactY S| * 1 := mul_le_mul_of_nonneg_left this (abs_nonneg _)
    _ ≤ _ := by rw [mul_one]; exact hl

theorem exactInv_lipschitz {T S : ℝ} (hT : 0 ≤ T) (hS : 0 ≤ S) : |1 / exactV T - 1 / exactV S| ≤ 1 / 2 ^ 90 * |T - S| := by
  obtain ⟨a, _⟩ := exactV_bounds hT
  obtain ⟨b, _⟩ := exactV_bounds hS
  have hl := exactV_lipschitz hT hS
  have hp : 0 < exactV T := by linarith
  have hq : 0 < exactV S := by linarith
  have e : 1 / exactV T - 1 / exactV S = -((exactV T - exactV S) / (exactV T * exactV S)) := by field_simp; ring
  rw [e, abs_neg, abs_div, abs_of_pos (mul_pos hp hq), div_le_iff₀ (mul_pos hp hq)]
  have : 1 / 1024 ≤ exactV T * exactV S := by nlinarith
  have h2 := abs_nonneg (T - S)
  have hc : (0 : ℝ) ≤ 1 / 2 ^ 90 := by positivity
  have e : (1 : ℝ) / 2 ^ 100 = 1 / 2 ^ 90 * (1 / 1024) := by norm_num
  rw [e] at hl
  generalize (1 : ℝ) / 2 ^ 90 = c at hc hl ⊢
  have h3 : c * |T - S| * (1 / 1024) ≤ c * |T - S| * (exactV T * exactV S) :=
    mul_le_mul_of_nonneg_left this (by positivity)
  linarith

theorem exact_density (s : FlowState ℝ) : exactLava.density s = 1 := by
  show (1 : ℝ) * (1.0 - 0) = 1
  norm_num

theorem exact_basal (s : FlowState ℝ) : exactLava.basalStress exactTerrain s = .ok (Real.sin (1 / 4)) := by
  unfold Lava.basalStress
  show (do let sl ← Except.ok (1 / 4 : ℝ); _) = _
  rw [ok_bind, exact_density, pure_ok_iff]
  show (1 : ℝ) * 1 * 1 * Real.sin (1 / 4) = _
  ring

theorem exact_yield (s : FlowState ℝ) : exactLava.yieldStrength s = .ok (exactY s.temp) := rfl

theorem exact_bulk (s : FlowState ℝ) (hT : s.temp ≠ 0) : exactLava.bulkViscosity s = .ok 1 := by
  have h1 : exactLava.melt.viscosity s = .ok 1 := by
    show (do let q ← PyNum.div (0 : ℝ) (s.temp - 0); PyNum.pow 10.0 (0 + q)) = _
    rw [div_of_ne (by simpa using hT), ok_bind, zero_div, add_zero]
    rw [pow_of_pos _ (by norm_num)]
    norm_num
  have h2 : exactLava.rel.relative s = .ok 1 := by
    show (do let q ← PyNum.div s.crystal 1; PyNum.mpow (1.0 - q) (-0 * 1)) = _
    rw [div_of_ne one_ne_zero, ok_bind]
    have : (-0 * 1 : ℝ) = 0 := by norm_num
    rw [this, mpow_real, realPow_ok_iff]
    exact ⟨fun h => lt_irrefl _ h.2, fun h => h.2 ⟨0, by simp⟩, by rw [Real.rpow_zero]⟩
  have h3 : exactLava.bub.relative s = .ok 1 := by
    show Except.ok (1.0 : ℝ) = _
    norm_num
  unfold Lava.bulkViscosity
  rw [h1, ok_bind, h2, ok_bind, h3, ok_bind, pure_ok_iff]
  norm_num

theorem exact_velocity (s : FlowState ℝ) (hT : 0 < s.temp) :
    exactLava.meanVelocity exactTerrain s = .ok (exactV s.temp, 3 * exactV s.temp / 1) := by
  rw [meanVelocity_ok_iff]
  exact ⟨_, _, _, exact_yield s, exact_basal s, exact_bulk s hT.ne', one_ne_zero,
    by have := exact_tau.1; intro e; rw [e] at this; norm_num at this, one_ne_zero, rfl, rfl⟩

end PyFlowGo
