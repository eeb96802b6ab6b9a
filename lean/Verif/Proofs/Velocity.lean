import Verif.Proofs.Base
import Verif.Model.World
import Verif.Spec.Physics
namespace PyFlowGo
open Spec

/-- The velocity formula of the code at ℝ. -/
theorem velocityFormula_real (d tb mu t0 : ℝ) :
    velocityFormula d tb mu t0 =
      if mu = 0 then .error .zeroDiv else if tb = 0 then .error .zeroDiv
      else .ok (binghamVelocity d tb mu t0) := by
  unfold velocityFormula
  by_cases hmu : mu = 0
  · rw [if_pos hmu, hmu]; simp [div_real]
  · rw [if_neg hmu]
    have h3 : (3.0 : ℝ) * mu ≠ 0 := by norm_num [hmu]
    rw [div_of_ne h3, ok_bind, div_of_ne (by norm_num), ok_bind]
    by_cases htb : tb = 0
    · rw [if_pos htb, htb]; simp [div_real]
    · rw [if_neg htb, div_of_ne htb, ok_bind]
      simp only [pure_eq_ok, npow_real, binghamVelocity, Except.ok.injEq]
      norm_num

section
variable {α : Type} [Add α] [Sub α] [Mul α] [Neg α] [OfScientific α] [PyNum α]

/-- What one pass of the loop computes. -/
def velocityPass (l : Lava α) (s : FlowState α) (depth t0 tb : α) : Except Err (α × α) := do
  let visc ← l.bulkViscosity s
  let v ← velocityFormula depth tb visc t0
  let ns ← PyNum.div (3.0 * v) depth
  return (v, ns)

/-- The loop settles at its second pass at the latest, if a strain rate that does not change is accepted. -/
theorem velocityLoop_settles (hset : ∀ x : α, leB (PyNum.absv (x - x)) (pyMax (1e-2 * PyNum.absv x) 1e-8) = true)
    (l : Lava α) (s : FlowState α) (d t0 tb : α) (n : Nat) (strain : α) :
    velocityLoop l s d t0 tb (n + 2) strain = velocityPass l s d t0 tb := by
  have key : ∀ (m : Nat) (v x y : α),
      velocityPass l s d t0 tb = .ok (v, x) → 
      velocityLoop l s d t0 tb (m + 1) y =
        if leB (PyNum.absv (x - y)) (pyMax (1e-2 * PyNum.absv x) 1e-8) then .ok (v, x)
        else velocityLoop l s d t0 tb m x := by
    intro m v x y h
    unfold velocityPass at h
    obtain ⟨mu, h1, h⟩ := bind_ok_iff.mp h
    obtain ⟨v', h2, h⟩ := bind_ok_iff.mp h
    obtain ⟨x', h3, h⟩ := bind_ok_iff.mp h
    have h4 := pure_ok_iff.mp h
    injection h4 with hv hx
    subst hv hx
    rw [velocityLoop, h1, ok_bind, h2, ok_bind, h3, ok_bind]
    simp only [pure_eq_ok]
  cases h : velocityPass l s d t0 tb with
  | error e =>
    unfold velocityPass at h
    rw [velocityLoop]
    rcases bind_error_iff.mp h with h1 | ⟨mu, h1, h⟩
    · rw [h1]; rfl
    rw [h1, ok_bind]
    rcases bind_error_iff.mp h with h2 | ⟨v, h2, h⟩
    · rw [h2]; rfl
    rw [h2, ok_bind]
    rcases bind_error_iff.mp h with h3 | ⟨x, h3, h⟩
    · rw [h3]; rfl
    · exact absurd h pure_ne_error
  | ok r =>
    obtain ⟨v, x⟩ := r
    rw [key (n + 1) v x strain h]
    split
    · rfl
    · rw [key n v x x h, if_pos (hset x)]

end

/-- The loop settles at its second pass at the latest. -/
theorem velocityLoop_eq (l : Lava ℝ) (s : FlowState ℝ) (d t0 tb : ℝ) (n : Nat) (strain : ℝ) :
    velocityLoop l s d t0 tb (n + 2) strain = velocityPass l s d t0 tb := by
  refine velocityLoop_settles (fun x => ?_) l s d t0 tb n strain
  simp only [pyMax_real, absv_real, leB_real]
  rw [sub_self, abs_zero]
  exact le_max_of_le_right (by norm_num)

/-- `compute_mean_velocity` without its loop. -/
theorem meanVelocity_eq (l : Lava ℝ) (t : Terrain ℝ) (s : FlowState ℝ) :
    l.meanVelocity t s = (do
      let t0 ← l.yieldStrength s
      let tb ← l.basalStress t s
      velocityPass l s t.depth t0 tb) := by
  unfold Lava.meanVelocity
  dsimp only
  refine bind_congr fun t0 => bind_congr fun tb => ?_
  exact velocityLoop_eq l s t.depth t0 tb 48 _

/-- `compute_mean_velocity` when it succeeds. -/
theorem meanVelocity_ok_iff (l : Lava ℝ) (t : Terrain ℝ) (s : FlowState ℝ) (v x : ℝ) :
    l.meanVelocity t s = .ok (v, x) ↔
      ∃ t0 tb mu, l.yieldStrength s = .ok t0 ∧ l.basalStress t s = .ok tb ∧
        l.bulkViscosity s = .ok mu ∧ mu ≠ 0 ∧ tb ≠ 0 ∧ t.depth ≠ 0 ∧
        v = binghamVelocity t.depth tb mu t0 ∧ x = 3 * v / t.depth := by
  rw [meanVelocity_eq]
  constructor
  · intro h
    obtain ⟨t0, h0, h⟩ := bind_ok_iff.mp h
    obtain ⟨tb, hb, h⟩ := bind_ok_iff.mp h
    unfold velocityPass at h
    obtain ⟨mu, h1, h⟩ := bind_ok_iff.mp h
    obtain ⟨v', h2, h⟩ := bind_ok_iff.mp h
    obtain ⟨x', h3, h⟩ := bind_ok_iff.mp h
    have h4 := pure_ok_iff.mp h
    injection h4 with hv hx
    subst hv hx
    rw [velocityFormula_real] at h2
    obtain ⟨hd, hx⟩ := div_ok_iff.mp h3
    by_cases hmu : mu = 0
    · rw [if_pos hmu] at h2; cases h2
    · rw [if_neg hmu] at h2
      by_cases htb : tb = 0
      · rw [if_pos htb] at h2; cases h2
      · rw [if_neg htb] at h2
        injection h2 with h2
        refine ⟨t0, tb, mu, h0, hb, h1, hmu, htb, hd, h2.symm, ?_⟩
        rw [hx]; norm_num
  · rintro ⟨t0, tb, mu, h0, hb, h1, hmu, htb, hd, hv, hx⟩
    rw [h0, ok_bind, hb, ok_bind, velocityPass, h1, ok_bind, velocityFormula_real, if_neg hmu, if_neg htb,
      ok_bind, div_of_ne hd, ok_bind, pure_eq_ok, hx, hv]
    norm_num

/-! ### The Bingham law -/

theorem bingham_factor (r : ℝ) : 1 - 3 / 2 * r + 1 / 2 * r ^ 3 = (1 - r) ^ 2 * (1 + r / 2) := by ring

theorem bingham_nonneg {d tb mu t0 : ℝ} (hd : 0 < d) (htb : 0 < tb) (hmu : 0 < mu) (h0 : 0 ≤ t0) :
    0 ≤ binghamVelocity d tb mu t0 := by
  unfold binghamVelocity
  rw [bingham_factor]
  positivity

theorem bingham_eq_zero {d tb mu t0 : ℝ} (hd : 0 < d) (htb : 0 < tb) (hmu : 0 < mu) (h0 : 0 ≤ t0) :
    binghamVelocity d tb mu t0 = 0 ↔ t0 = tb := by
  unfold binghamVelocity
  rw [bingham_factor]
  have h1 : d * tb / (3 * mu) ≠ 0 := by positivity
  have h2 : (1 + t0 / tb / 2) ≠ 0 := by positivity
  rw [mul_eq_zero, mul_eq_zero, or_iff_right h1, or_iff_left h2, sq_eq_zero_iff, sub_eq_zero,
    eq_comm, div_eq_one_iff_eq htb.ne']

theorem bingham_pos {d tb mu t0 : ℝ} (hd : 0 < d) (htb : 0 < tb) (hmu : 0 < mu) (h0 : 0 ≤ t0)
    (hne : t0 ≠ tb) : 0 < binghamVelocity d tb mu t0 :=
  lt_of_le_of_ne (bingham_nonneg hd htb hmu h0)
    (fun e => hne ((bingham_eq_zero hd htb hmu h0).mp e.symm))

theorem bingham_strictAnti_yield {d tb mu a b : ℝ} (hd : 0 < d) (htb : 0 < tb) (hmu : 0 < mu)
    (ha : 0 ≤ a) (hab : a < b) (hb : b ≤ tb) :
    binghamVelocity d tb mu b < binghamVelocity d tb mu a := by
  unfold binghamVelocity
  apply mul_lt_mul_of_pos_left _ (by positivity)
  have hx : 0 ≤ a / tb := by positivity
  have hxy : a / tb < b / tb := div_lt_div_of_pos_right hab htb
  have hy : b / tb ≤ 1 := (div_le_one htb).mpr hb
  generalize a / tb = x at *
  generalize b / tb = y at *
  have : 0 < (y - x) * (3 - (x ^ 2 + x * y + y ^ 2)) := by
    apply mul_pos (by linarith)
    have hx1 : x < 1 := by linarith
    nlinarith [mul_nonneg hx (by linarith : (0:ℝ) ≤ y), mul_nonneg hx (sub_nonneg.mpr hx1.le)]
  nlinarith

theorem bingham_strictAnti_visc {d tb mu mu' t0 : ℝ} (hd : 0 < d) (htb : 0 < tb) (hmu : 0 < mu)
    (h : mu < mu') (h0 : 0 ≤ t0) (hne : t0 ≠ tb) :
    binghamVelocity d tb mu' t0 < binghamVelocity d tb mu t0 := by
  have hp := bingham_pos hd htb (show (0:ℝ) < 1 by norm_num) h0 hne
  unfold binghamVelocity at *
  have hf : 0 < 1 - 3 / 2 * (t0 / tb) + 1 / 2 * (t0 / tb) ^ 3 := by
    by_contra hc
    have : d * tb / (3 * 1) * (1 - 3 / 2 * (t0 / tb) + 1 / 2 * (t0 / tb) ^ 3) ≤ 0 :=
      mul_nonpos_of_nonneg_of_nonpos (by positivity) (not_lt.mp hc)
    linarith
  apply mul_lt_mul_of_pos_right _ hf
  apply div_lt_div_of_pos_left (by positivity) (by positivity)
  linarith

end PyFlowGo
