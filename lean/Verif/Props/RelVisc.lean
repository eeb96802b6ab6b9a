import Verif.Props.Melt
import Verif.Proofs.Examples
/-
  C29, C30: relative viscosity of crystal-bearing lava.
-/
namespace PyFlowGo
open Spec

/-! ### The laws -/

theorem one_lit : (1.0 : ℝ) = 1 := by norm_num

theorem muellerPhimax_of_pos {rp : ℝ} (h : 0 < rp) : muellerPhimax rp = .ok (muellerPacking rp) := by
  unfold muellerPhimax muellerPacking
  rw [log10_of_pos h, ok_bind, div_of_ne (by norm_num), ok_bind, pure_eq_ok]
  simp only [npow_real, exp_real]
  norm_num

theorem muellerPacking_pos (rp : ℝ) : 0 < muellerPacking rp := by unfold muellerPacking; positivity

theorem maronPierce_of_lt {φ φm : ℝ} (hm : 0 < φm) (h : φ < φm) :
    maronPierce φ φm = .ok (maronPierceLaw φm φ) := by
  unfold maronPierce maronPierceLaw
  rw [div_of_ne hm.ne', ok_bind, mpow_of_pos]
  · norm_num
  · have : φ / φm < 1 := (div_lt_one hm).mpr h
    rw [one_lit]; linarith

theorem packingLimit_pos (s : FlowState ℝ) (m : RelModel ℝ) (hv : RelValid s m) : 0 < packingLimit s m := by
  cases m <;> simp only [RelValid, packingLimit] at *
  · norm_num
  · exact hv.1
  · exact hv
  · exact muellerPacking_pos _
  all_goals linarith

/-- **C29**, the laws: below the packing limit every model computes its published law. -/
theorem C29_relative_viscosity_laws (m : RelModel ℝ) (s : FlowState ℝ) (hv : RelValid s m)
    (h0 : 0 ≤ s.crystal) (h1 : s.crystal < packingLimit s m) :
    m.relative s = .ok (relLaw s m s.crystal) := by
  cases m <;> simp only [RelValid, packingLimit, relLaw] at * <;> unfold RelModel.relative <;> dsimp only
  · rw [mpow_of_pos]
    · unfold einsteinRoscoe; norm_num
    · rw [lt_div_iff₀ (by norm_num)] at h1; rw [one_lit]; linarith
  · rw [div_of_ne hv.1.ne', ok_bind, mpow_of_pos]
    · unfold kriegerDougherty; rw [one_lit, neg_mul]
    · have := (div_lt_one hv.1).mpr h1
      rw [one_lit]; linarith
  · exact maronPierce_of_lt hv h1
  · rw [muellerPhimax_of_pos hv, ok_bind]; exact maronPierce_of_lt (muellerPacking_pos _) h1
  · rw [one_lit, div_of_ne (by linarith), ok_bind, pow_of_pos, ok_bind, pow_of_pos, ok_bind, pure_eq_ok]
    · unfold phanThienPham1
      rw [Real.rpow_neg (show 0 ≤ 1 - VesicleModel.fraction _ s by linarith), Real.rpow_one]
      norm_num
    · linarith
    · have := (div_lt_one (by linarith : 0 < 1 - VesicleModel.fraction _ s)).mpr h1
      linarith
  · rw [one_lit, div_of_ne (by linarith), ok_bind, mpow_of_pos]
    · unfold phanThienPham2
      norm_num
    · linarith
  · rw [one_lit, div_of_ne (by linarith), ok_bind, pow_of_pos, ok_bind, pow_of_pos, ok_bind, pure_eq_ok]
    · unfold phanThienPham3
      rw [Real.rpow_neg (by
        have := (div_le_one (by linarith : 0 < 1 - s.crystal)).mpr (show VesicleModel.fraction _ s ≤ _ by linarith)
        linarith), Real.rpow_one]
      norm_num
    · linarith
    · have := (div_lt_one (by linarith : 0 < 1 - s.crystal)).mpr (show VesicleModel.fraction _ s < _ by linarith)
      linarith

/-! ### Growth of the laws -/

/-- `x ↦ x ^ (-p)` is strictly decreasing. -/
theorem rpow_neg_strictAnti {x y p : ℝ} (hx : 0 < x) (hxy : x < y) (hp : 0 < p) : y ^ (-p) < x ^ (-p) :=
  Real.rpow_lt_rpow_of_neg hx hxy (by linarith)

theorem one_le_rpow_neg {x p : ℝ} (hx : 0 < x) (hx1 : x ≤ 1) (hp : 0 ≤ p) : 1 ≤ x ^ (-p) :=
  Real.one_le_rpow_of_pos_of_le_one_of_nonpos hx hx1 (by linarith)

theorem ptp2_strictMono {v φ φ' : ℝ} (hv : 0 < v) (h0 : 0 ≤ φ) (h : φ < φ') (h1 : φ' < 1 - v) :
    phanThienPham2 φ v < phanThienPham2 φ' v := by
  unfold phanThienPham2
  have hb' : 0 < 1 - φ' - v := by linarith
  have hb : 0 < 1 - φ - v := by linarith
  have he : 0 < (5 * φ + 2 * v) / (2 * (φ + v)) := by positivity
  have hee : (5 * φ + 2 * v) / (2 * (φ + v)) ≤ (5 * φ' + 2 * v) / (2 * (φ' + v)) := by
    have : 0 ≤ φ' := by linarith
    rw [div_le_div_iff₀ (by positivity) (by positivity)]
    nlinarith
  calc (1 - φ - v) ^ (-((5 * φ + 2 * v) / (2 * (φ + v))))
      < (1 - φ' - v) ^ (-((5 * φ + 2 * v) / (2 * (φ + v)))) := rpow_neg_strictAnti hb' (by linarith) he
    _ ≤ (1 - φ' - v) ^ (-((5 * φ' + 2 * v) / (2 * (φ' + v)))) :=
        Real.rpow_le_rpow_of_exponent_ge hb' (by linarith) (by linarith)

/-- The laws are >= 1 below packing. -/
theorem relLaw_ge_one (m : RelModel ℝ) (s : FlowState ℝ) (hv : RelValid s m) (φ : ℝ)
    (h0 : 0 ≤ φ) (h1 : φ < packingLimit s m) : 1 ≤ relLaw s m φ := by
  cases m <;> simp only [RelValid, packingLimit, relLaw] at *
  · rw [lt_div_iff₀ (by norm_num)] at h1
    exact one_le_rpow_neg (by linarith) (by linarith) (by norm_num)
  · have := (div_lt_one hv.1).mpr h1
    have h3 : 0 ≤ φ / _ := div_nonneg h0 hv.1.le
    exact one_le_rpow_neg (by linarith) (by linarith) (mul_pos hv.2 hv.1).le
  · have := (div_lt_one hv).mpr h1
    have h3 : 0 ≤ φ / _ := div_nonneg h0 hv.le
    exact one_le_rpow_neg (p := 2) (by linarith) (by linarith) (by norm_num)
  · rename_i rp
    have := (div_lt_one (muellerPacking_pos _)).mpr h1
    have h3 : 0 ≤ φ / _ := div_nonneg h0 (muellerPacking_pos rp).le
    exact one_le_rpow_neg (p := 2) (by linarith) (by linarith) (by norm_num)
  · rename_i ves
    have hp : 0 < 1 - ves.fraction s := by linarith
    have := (div_lt_one hp).mpr h1
    have h3 : 0 ≤ φ / _ := div_nonneg h0 hp.le
    have h4 : 1 ≤ (1 - ves.fraction s)⁻¹ := (one_le_inv₀ hp).mpr (by linarith)
    have h5 : 1 ≤ (1 - φ / (1 - ves.fraction s)) ^ (-(5 / 2) : ℝ) :=
      one_le_rpow_neg (by linarith) (by linarith) (by norm_num)
    unfold phanThienPham1
    nlinarith
  · rename_i ves
    have : 0 < ves.fraction s := hv.1
    exact one_le_rpow_neg (by linarith) (by linarith) (by positivity)
  · rename_i ves
    have hp : 0 < 1 - φ := by linarith
    have h2 := (div_lt_one hp).mpr (show ves.fraction s < _ by linarith)
    have h3 : 0 ≤ ves.fraction s / (1 - φ) := div_nonneg hv.1 hp.le
    have h4 : 1 ≤ (1 - ves.fraction s / (1 - φ))⁻¹ := (one_le_inv₀ (by linarith)).mpr (by linarith)
    have h5 : 1 ≤ (1 - φ) ^ (-(5 / 2) : ℝ) := one_le_rpow_neg (by linarith) (by linarith) (by norm_num)
    unfold phanThienPham3
    nlinarith

/-- The laws are strictly increasing in the crystal fraction below packing. -/
theorem relLaw_strictMono (m : RelModel ℝ) (s : FlowState ℝ) (hv : RelValid s m) (φ φ' : ℝ)
    (h0 : 0 ≤ φ) (h : φ < φ') (h1 : φ' < packingLimit s m) : relLaw s m φ < relLaw s m φ' := by
  have mp : ∀ φm : ℝ, 0 < φm → φ' < φm → maronPierceLaw φm φ < maronPierceLaw φm φ' := by
    intro φm hm h1
    have := (div_lt_one hm).mpr h1
    have h3 := div_lt_div_of_pos_right h hm
    exact rpow_neg_strictAnti (p := 2) (by linarith) (by linarith) (by norm_num)
  cases m <;> simp only [RelValid, packingLimit, relLaw] at *
  · rw [lt_div_iff₀ (by norm_num)] at h1
    exact rpow_neg_strictAnti (by linarith) (by linarith) (by norm_num)
  · have := (div_lt_one hv.1).mpr h1
    have h3 := div_lt_div_of_pos_right h hv.1
    exact rpow_neg_strictAnti (by linarith) (by linarith) (mul_pos hv.2 hv.1)
  · exact mp _ hv h1
  · exact mp _ (muellerPacking_pos _) h1
  · rename_i ves
    have hp : 0 < 1 - ves.fraction s := by linarith
    have := (div_lt_one hp).mpr h1
    have h3 := div_lt_div_of_pos_right h hp
    unfold phanThienPham1
    apply mul_lt_mul_of_pos_right _ (inv_pos.mpr hp)
    exact rpow_neg_strictAnti (by linarith) (by linarith) (by norm_num)
  · exact ptp2_strictMono hv.1 h0 h h1
  · rename_i ves
    have hp : 0 < 1 - φ := by linarith
    have hp' : 0 < 1 - φ' := by linarith
    have h2 := (div_lt_one hp').mpr (show ves.fraction s < _ by linarith)
    have h3 : ves.fraction s / (1 - φ) ≤ ves.fraction s / (1 - φ') :=
      div_le_div_of_nonneg_left hv.1 hp' (by linarith)
    have h4 : (1 - ves.fraction s / (1 - φ))⁻¹ ≤ (1 - ves.fraction s / (1 - φ'))⁻¹ :=
      inv_anti₀ (by linarith) (by linarith)
    have h5 : (1 - φ) ^ (-(5 / 2) : ℝ) < (1 - φ') ^ (-(5 / 2) : ℝ) :=
      rpow_neg_strictAnti hp' (by linarith) (by norm_num)
    have h6 : 0 < (1 - ves.fraction s / (1 - φ))⁻¹ := inv_pos.mpr (by linarith)
    have h7 : 0 < (1 - φ') ^ (-(5 / 2) : ℝ) := Real.rpow_pos_of_pos hp' _
    unfold phanThienPham3
    nlinarith

/-- **C29**. Below the packing limit, crystals never thin the lava: the relative viscosity is computed and
    is at least 1. -/
theorem C29_at_least_one (m : RelModel ℝ) (s : FlowState ℝ) (hv : RelValid s m)
    (h0 : 0 ≤ s.crystal) (h1 : s.crystal < packingLimit s m) : ∃ r, m.relative s = .ok r ∧ 1 ≤ r :=
  ⟨_, C29_relative_viscosity_laws m s hv h0 h1, relLaw_ge_one m s hv _ h0 h1⟩

/-- The vesicle fraction does not depend on the crystal fraction. -/
theorem ves_crystal (m : VesicleModel ℝ) (s : FlowState ℝ) (x : ℝ) :
    m.fraction { s with crystal := x } = m.fraction s := by
  cases m <;> rfl

/-- **C29**. Two states that differ in their crystal fraction only: more crystals, strictly higher relative
    viscosity (all seven laws, including ptp2). -/
theorem C29_increasing_in_crystals (m : RelModel ℝ) (s : FlowState ℝ) (φ' : ℝ) (hv : RelValid s m)
    (h0 : 0 ≤ s.crystal) (h : s.crystal < φ') (h1 : φ' < packingLimit s m) (r r' : ℝ)
    (hr : m.relative s = .ok r) (hr' : m.relative { s with crystal := φ' } = .ok r') : r < r' := by
  rw [C29_relative_viscosity_laws m s hv h0 (h.trans h1)] at hr
  have hv' : RelValid { s with crystal := φ' } m := by
    cases m <;> simp only [RelValid, ves_crystal] at hv ⊢ <;> exact hv
  have hp' : packingLimit { s with crystal := φ' } m = packingLimit s m := by
    cases m <;> simp only [packingLimit, ves_crystal]
  have hl' : relLaw { s with crystal := φ' } m = relLaw s m := by
    funext x
    cases m <;> simp only [relLaw, ves_crystal]
  rw [C29_relative_viscosity_laws m _ hv' (by simp only; linarith) (by rw [hp']; exact h1), hl'] at hr'
  injection hr with hr; injection hr' with hr'
  rw [← hr, ← hr']
  exact relLaw_strictMono m s hv _ _ h0 h h1

example : RelValid (exState 0.3 0) (.kd 0.641 2.5) ∧ (exState 0.3 0).crystal < packingLimit (exState 0.3 0) (.kd 0.641 2.5) ∧
    RelValid (exState 0.3 0) (.ptp2 (.constant 0.1)) ∧
    (exState 0.3 0).crystal < packingLimit (exState 0.3 0) (.ptp2 (.constant 0.1)) := by
  norm_num [RelValid, packingLimit, exState, VesicleModel.fraction]

end PyFlowGo
