import Verif.Props.Bubbles
import Verif.Spec.MaderLaw
import Verif.Model.CostaSingle
/-
  C87: the Costa relative viscosity.  C88: the Mader relative viscosity.
-/
namespace PyFlowGo
open Spec

/-! ### C87 -/

/-- **C87**, the fits: for the two supported values of the `strain_rate` parameter, costa1 (spheres) and costa2 (needles)
    compute, for every crystal fraction >= 0, the law of Costa et al. with the four constants of Cimarelli et al. -/
theorem C87_costa_laws (s : FlowState ℝ) (h0 : 0 ≤ s.crystal) :
    (RelModel.costa1 1).relative s = .ok (costa 11.4 1.6 0.67 0.01 s.crystal) ∧
    (RelModel.costa1 0.0001).relative s = .ok (costa 11.48 1.52 0.62 0.005 s.crystal) ∧
    (RelModel.costa2 1).relative s = .ok (costa 4.45 8.55 0.28 0.001 s.crystal) ∧
    (RelModel.costa2 0.0001).relative s = .ok (costa 7.5 5.5 0.26 0.0002 s.crystal) := by
  have e1 : eqB (1 : ℝ) 1.0 = true := by rw [eqB_real, one_lit]
  have e2 : ¬ (eqB (0.0001 : ℝ) 1.0 = true) := by rw [eqB_real]; norm_num
  have e3 : eqB (0.0001 : ℝ) 0.0001 = true := by rw [eqB_real]
  refine ⟨?_, ?_, ?_, ?_⟩ <;> unfold RelModel.relative <;> dsimp only
  · rw [if_pos e1]
    exact (costaLaw_pos (by norm_num) (by norm_num) (by norm_num) (by norm_num) (by norm_num) h0).1
  · rw [if_neg e2, if_pos e3]
    exact (costaLaw_pos (by norm_num) (by norm_num) (by norm_num) (by norm_num) (by norm_num) h0).1
  · rw [if_pos e1]
    exact (costaLaw_pos (by norm_num) (by norm_num) (by norm_num) (by norm_num) (by norm_num) h0).1
  · rw [if_neg e2, if_pos e3]
    exact (costaLaw_pos (by norm_num) (by norm_num) (by norm_num) (by norm_num) (by norm_num) h0).1

theorem erf_mono {x y : ℝ} (hx : 0 ≤ x) (hxy : x ≤ y) : erf x ≤ erf y := by
  unfold erf
  apply mul_le_mul_of_nonneg_left _ (by positivity)
  have hc : Continuous fun t : ℝ => Real.exp (-t ^ 2) := by fun_prop
  rw [← intervalIntegral.integral_add_adjacent_intervals (hc.intervalIntegrable 0 x) (hc.intervalIntegrable x y)]
  have : 0 ≤ ∫ t in x..y, Real.exp (-t ^ 2) :=
    intervalIntegral.integral_nonneg hxy fun t _ => (Real.exp_pos _).le
  linarith

/-- The argument given to the error function. -/
noncomputable def costaArg (γ φs ε φ : ℝ) : ℝ :=
  min 25 (Real.sqrt Real.pi / (2 * (1 - ε)) * (φ / φs) * (1 + (φ / φs) ^ γ))

theorem costaArg_nonneg {γ φs ε φ : ℝ} (hs : 0 < φs) (he1 : ε < 1) (h0 : 0 ≤ φ) : 0 ≤ costaArg γ φs ε φ := by
  unfold costaArg
  apply le_min (by norm_num)
  have h1 : 0 < 1 - ε := by linarith
  have h2 : 0 ≤ (φ / φs) ^ γ := Real.rpow_nonneg (div_nonneg h0 hs.le) _
  positivity

theorem costaArg_mono {γ φs ε φ φ' : ℝ} (hs : 0 < φs) (he1 : ε < 1) (hγ : 0 ≤ γ) (h0 : 0 ≤ φ) (h : φ ≤ φ') :
    costaArg γ φs ε φ ≤ costaArg γ φs ε φ' := by
  unfold costaArg
  apply min_le_min le_rfl
  have h1 : 0 < 1 - ε := by linarith
  have hq : 0 ≤ φ / φs := div_nonneg h0 hs.le
  have hqq : φ / φs ≤ φ' / φs := div_le_div_of_nonneg_right h hs.le
  have h2 : 0 ≤ (φ / φs) ^ γ := Real.rpow_nonneg hq _
  have h3 : (φ / φs) ^ γ ≤ (φ' / φs) ^ γ := Real.rpow_le_rpow hq hqq hγ
  have h4 : 0 ≤ φ' / φs := hq.trans hqq
  gcongr

/-- The base of the denominator lies between ε and one, and decreases with the crystal fraction. -/
theorem costaBase {γ φs ε φ : ℝ} (hs : 0 < φs) (he : 0 < ε) (he1 : ε < 1) (h0 : 0 ≤ φ) :
    ε ≤ 1 - (1 - ε) * erf (costaArg γ φs ε φ) ∧ 1 - (1 - ε) * erf (costaArg γ φs ε φ) ≤ 1 := by
  have ha := costaArg_nonneg (γ := γ) hs he1 h0
  have h1 := erf_le_one _ ha
  have h2 := erf_nonneg _ ha
  constructor <;> nlinarith

theorem costa_mono {δ γ φs ε φ φ' : ℝ} (hs : 0 < φs) (he : 0 < ε) (he1 : ε < 1) (hγ : 0 ≤ γ) (hδ : 0 < δ)
    (h0 : 0 ≤ φ) (h : φ < φ') : costa δ γ φs ε φ < costa δ γ φs ε φ' := by
  have hb := (costaBase (γ := γ) hs he he1 h0).1
  have hb' := (costaBase (γ := γ) hs he he1 (h0.trans h.le)).1
  have hm := erf_mono (costaArg_nonneg (γ := γ) hs he1 h0) (costaArg_mono (γ := γ) hs he1 hγ h0 h.le)
  have hd : 1 - (1 - ε) * erf (costaArg γ φs ε φ') ≤ 1 - (1 - ε) * erf (costaArg γ φs ε φ) := by nlinarith
  have hq : 0 ≤ φ / φs := div_nonneg h0 hs.le
  have hqq : φ / φs < φ' / φs := div_lt_div_of_pos_right h hs
  have hn : (φ / φs) ^ δ < (φ' / φs) ^ δ := Real.rpow_lt_rpow hq hqq hδ
  have hn0 : 0 ≤ (φ / φs) ^ δ := Real.rpow_nonneg hq _
  show (1 + (φ / φs) ^ δ) / (1 - (1 - ε) * erf (costaArg γ φs ε φ)) ^ (2.5 * φs) <
    (1 + (φ' / φs) ^ δ) / (1 - (1 - ε) * erf (costaArg γ φs ε φ')) ^ (2.5 * φs)
  apply div_lt_div₀ (by linarith)
  · exact Real.rpow_le_rpow (by linarith) hd (by positivity)
  · linarith
  · exact Real.rpow_pos_of_pos (by linarith) _

theorem costa_bounds {δ γ φs ε φ : ℝ} (hs : 0 < φs) (he : 0 < ε) (he1 : ε < 1) (h0 : 0 ≤ φ) :
    1 + (φ / φs) ^ δ ≤ costa δ γ φs ε φ ∧ costa δ γ φs ε φ ≤ (1 + (φ / φs) ^ δ) * ε ^ (-(2.5 * φs)) := by
  obtain ⟨hb, hb1⟩ := costaBase (γ := γ) hs he he1 h0
  have hn0 : 0 ≤ (φ / φs) ^ δ := Real.rpow_nonneg (div_nonneg h0 hs.le) _
  have hpos : 0 < (1 - (1 - ε) * erf (costaArg γ φs ε φ)) ^ (2.5 * φs) := Real.rpow_pos_of_pos (by linarith) _
  have hle1 : (1 - (1 - ε) * erf (costaArg γ φs ε φ)) ^ (2.5 * φs) ≤ 1 :=
    Real.rpow_le_one (by linarith) hb1 (by positivity)
  have hge : ε ^ (2.5 * φs) ≤ (1 - (1 - ε) * erf (costaArg γ φs ε φ)) ^ (2.5 * φs) :=
    Real.rpow_le_rpow he.le hb (by positivity)
  show 1 + (φ / φs) ^ δ ≤ (1 + (φ / φs) ^ δ) / (1 - (1 - ε) * erf (costaArg γ φs ε φ)) ^ (2.5 * φs) ∧
    (1 + (φ / φs) ^ δ) / (1 - (1 - ε) * erf (costaArg γ φs ε φ)) ^ (2.5 * φs) ≤ _
  constructor
  · rw [le_div_iff₀ hpos]
    nlinarith
  · rw [Real.rpow_neg he.le, ← div_eq_mul_inv]
    exact div_le_div_of_nonneg_left (by linarith) (Real.rpow_pos_of_pos he _) hge

/-- A Costa model with a supported parameter. -/
def CostaModel (m : RelModel ℝ) : Prop :=
  m = .costa1 1 ∨ m = .costa1 0.0001 ∨ m = .costa2 1 ∨ m = .costa2 0.0001

/-- **C87**, no packing limit: a Costa model with a supported parameter gives a number for every crystal fraction >= 0,
    however large, and accepts every state; the number is at least one, ... -/
theorem C87_costa_total (m : RelModel ℝ) (hm : CostaModel m) (s : FlowState ℝ) (h0 : 0 ≤ s.crystal) :
    m.notCompatible s = .ok false ∧ ∃ r, m.relative s = .ok r ∧ 1 ≤ r := by
  obtain ⟨l1, l2, l3, l4⟩ := C87_costa_laws s h0
  have one : ∀ δ φs : ℝ, 0 < φs → (1:ℝ) ≤ 1 + (s.crystal / φs) ^ δ := by
    intro δ φs h
    have := Real.rpow_nonneg (div_nonneg h0 h.le) δ
    linarith
  rcases hm with rfl | rfl | rfl | rfl
  · exact ⟨rfl, _, l1, (one _ _ (by norm_num)).trans (costa_bounds (by norm_num) (by norm_num) (by norm_num) h0).1⟩
  · exact ⟨rfl, _, l2, (one _ _ (by norm_num)).trans (costa_bounds (by norm_num) (by norm_num) (by norm_num) h0).1⟩
  · exact ⟨rfl, _, l3, (one _ _ (by norm_num)).trans (costa_bounds (by norm_num) (by norm_num) (by norm_num) h0).1⟩
  · exact ⟨rfl, _, l4, (one _ _ (by norm_num)).trans (costa_bounds (by norm_num) (by norm_num) (by norm_num) h0).1⟩

/-- **C87**, ... it is one without crystals, ... -/
theorem C87_costa_pure_melt (m : RelModel ℝ) (hm : CostaModel m) (s : FlowState ℝ) (h0 : s.crystal = 0) :
    m.relative s = .ok 1 := by
  obtain ⟨l1, l2, l3, l4⟩ := C87_costa_laws s h0.ge
  have z : ∀ δ γ φs ε : ℝ, 0 < δ → 0 < γ → costa δ γ φs ε 0 = 1 := by
    intro δ γ φs ε hδ hγ
    unfold costa
    rw [zero_div, Real.zero_rpow hδ.ne', Real.zero_rpow hγ.ne']
    simp [erf]
  rw [h0] at l1 l2 l3 l4
  rcases hm with rfl | rfl | rfl | rfl
  · rw [l1, z _ _ _ _ (by norm_num) (by norm_num)]
  · rw [l2, z _ _ _ _ (by norm_num) (by norm_num)]
  · rw [l3, z _ _ _ _ (by norm_num) (by norm_num)]
  · rw [l4, z _ _ _ _ (by norm_num) (by norm_num)]

/-- **C87**, ... and it strictly increases with the crystal fraction, past every packing limit. -/
theorem C87_costa_increasing (m : RelModel ℝ) (hm : CostaModel m) (s s' : FlowState ℝ) (h0 : 0 ≤ s.crystal)
    (h : s.crystal < s'.crystal) : ∃ r r', m.relative s = .ok r ∧ m.relative s' = .ok r' ∧ r < r' := by
  obtain ⟨l1, l2, l3, l4⟩ := C87_costa_laws s h0
  obtain ⟨k1, k2, k3, k4⟩ := C87_costa_laws s' (h0.trans h.le)
  rcases hm with rfl | rfl | rfl | rfl
  · exact ⟨_, _, l1, k1, costa_mono (by norm_num) (by norm_num) (by norm_num) (by norm_num) (by norm_num) h0 h⟩
  · exact ⟨_, _, l2, k2, costa_mono (by norm_num) (by norm_num) (by norm_num) (by norm_num) (by norm_num) h0 h⟩
  · exact ⟨_, _, l3, k3, costa_mono (by norm_num) (by norm_num) (by norm_num) (by norm_num) (by norm_num) h0 h⟩
  · exact ⟨_, _, l4, k4, costa_mono (by norm_num) (by norm_num) (by norm_num) (by norm_num) (by norm_num) h0 h⟩

/-- **C87**, a bound: the value stays between 1 + (φ/φ*)^δ and that number times ε^(-2.5 φ*) (the suspension behaves as
    an incompressible solid of finite viscosity): here for costa1 at strain rate 1, at any crystal fraction. -/
theorem C87_costa_bounded (s : FlowState ℝ) (h0 : 0 ≤ s.crystal) :
    ∃ r, (RelModel.costa1 1).relative s = .ok r ∧ 1 + (s.crystal / 0.67) ^ (11.4 : ℝ) ≤ r ∧
      r ≤ (1 + (s.crystal / 0.67) ^ (11.4 : ℝ)) * 0.01 ^ (-(2.5 * 0.67) : ℝ) :=
  ⟨_, (C87_costa_laws s h0).1, costa_bounds (by norm_num) (by norm_num) (by norm_num) h0⟩

/-- **C87**, the model's strain rate is irrelevant: whatever the parameter, only the crystal fraction of the state is read. -/
theorem C87_costa_reads_crystals_only (m : RelModel ℝ) (p : ℝ) (hm : m = .costa1 p ∨ m = .costa2 p)
    (s s' : FlowState ℝ) (h : s.crystal = s'.crystal) : m.relative s = m.relative s' := by
  rcases hm with rfl | rfl <;> unfold RelModel.relative <;> dsimp only <;> rw [h]

/-- **C87**, the unused class: for a `strain_rate` parameter that is neither 1 nor 0.0001 it returns `None`, without raising. -/
theorem C87_costa_single_none (p : ℝ) (s : FlowState ℝ) (h1 : p ≠ 1) (h2 : p ≠ 1 / 10000) : costaSingle p s = .ok none := by
  unfold costaSingle
  rw [if_neg (by rw [eqB_real]; intro h; exact h1 (by norm_num at h; exact h)), if_neg (by rw [eqB_real]; intro h; exact h2 (by norm_num at h ⊢; exact h))]

example (s : FlowState ℝ) : costaSingle 2 s = .ok none := C87_costa_single_none 2 s (by norm_num) (by norm_num)

/-- **C87**, the unused class: it returns what costa1 returns where costa1 returns a number, and `None` exactly where
    costa1 leaves the lava without a viscosity. -/
theorem C87_costa_single_class {α : Type} [Add α] [Sub α] [Mul α] [Neg α] [OfScientific α] [PyNum α] (p : α)
    (s : FlowState α) :
    (∀ r, (RelModel.costa1 p).relative s = .ok r ↔ costaSingle p s = .ok (some r)) ∧
    (costaSingle p s = .ok none → (RelModel.costa1 p).relative s = .error .typeError) ∧
    costaSingleNotCompatible p s = (RelModel.costa1 p).notCompatible s := by
  unfold costaSingle RelModel.relative costaSingleNotCompatible RelModel.notCompatible; dsimp only
  refine ⟨?_, ?_, rfl⟩
  · intro r
    split
    · rw [bind_ok_iff]; simp [pure_ok_iff]
    · split
      · rw [bind_ok_iff]; simp [pure_ok_iff]
      · simp
  · split
    · rw [bind_ok_iff]; simp [pure_ok_iff]
    · split
      · rw [bind_ok_iff]; simp [pure_ok_iff]
      · simp

/-- The hypotheses are met far past packing: a lava of 90 % crystals. -/
example : ∃ r, (RelModel.costa2 1).relative (exState 0.9 0) = .ok r ∧ 1 ≤ r :=
  (C87_costa_total _ (.inr (.inr (.inl rfl))) _ (by norm_num [exState])).2

/-! ### C88 -/

/-- **C88**, the law: below packing, at a positive strain rate, the Mader model computes its published law. -/
theorem C88_mader_law (rp : ℝ) (hrp : 0 < rp) (s : FlowState ℝ) (hl : s.crystal < muellerPacking rp)
    (hs : 0 < s.strain) : (RelModel.mader rp).relative s = .ok (mader rp s.crystal s.strain) := by
  have hp := muellerPacking_pos rp
  have h1 : (0:ℝ) < 1.0 - s.crystal / muellerPacking rp := by
    have := (div_lt_one hp).mpr hl; rw [one_lit]; linarith
  unfold RelModel.relative maderRelative; dsimp only
  rw [muellerPhimax_of_pos hrp, ok_bind, div_of_ne hp.ne', ok_bind]
  have half : leB (0.5 : ℝ) (s.crystal / muellerPacking rp) = true ↔ muellerPacking rp / 2 ≤ s.crystal := by
    rw [leB_real, le_div_iff₀ hp]; norm_num; constructor <;> intro h <;> linarith
  have idx : (1.0 - 0.2 * rp * PyNum.npow (s.crystal / muellerPacking rp) 4 : ℝ) = maderIndex rp s.crystal := by
    unfold maderIndex; rw [npow_real, one_lit]
  rw [idx]
  unfold mader
  by_cases hh : muellerPacking rp / 2 ≤ s.crystal
  · rw [if_pos (half.mpr hh)]
    by_cases hn : maderIndex rp s.crystal < 0.9
    · rw [if_pos (by rw [ltB_real]; exact hn), if_neg (by rw [leB_real]; norm_num; exact hs), if_pos ⟨hh, hn⟩,
        mpow_of_pos _ h1, ok_bind, pow_of_pos _ hs, ok_bind, pure_eq_ok]
      unfold maronPierceLaw
      norm_num
    · rw [if_neg (by rw [ltB_real]; exact hn), if_neg (fun h => hn h.2)]
      exact maronPierce_of_lt hp hl
  · rw [if_neg (fun h => hh (half.mp h)), if_neg (fun h => hh h.1)]
    exact maronPierce_of_lt hp hl

/-- **C88**, outside the shear-thinning regime the strain rate, of either sign, plays no role. -/
theorem C88_mader_newtonian (rp : ℝ) (hrp : 0 < rp) (s : FlowState ℝ) (hl : s.crystal < muellerPacking rp)
    (hn : ¬ MaderThinning rp s.crystal) :
    (RelModel.mader rp).relative s = .ok (maronPierceLaw (muellerPacking rp) s.crystal) := by
  have hp := muellerPacking_pos rp
  unfold RelModel.relative maderRelative; dsimp only
  rw [muellerPhimax_of_pos hrp, ok_bind, div_of_ne hp.ne', ok_bind]
  split
  · rename_i hh
    split
    · rename_i hi
      exfalso; apply hn
      rw [leB_real, le_div_iff₀ hp] at hh
      rw [ltB_real, npow_real, one_lit] at hi
      refine ⟨by norm_num at hh; linarith, hi⟩
    · exact maronPierce_of_lt hp hl
  · exact maronPierce_of_lt hp hl

theorem mader_index_lt {rp φ : ℝ} (h : MaderThinning rp φ) : maderIndex rp φ - 1 < 0 := by
  have := h.2; norm_num at this; linarith

theorem maronPierceLaw_pos {φm φ : ℝ} (hm : 0 < φm) (h : φ < φm) : 0 < maronPierceLaw φm φ := by
  unfold maronPierceLaw
  have := (div_lt_one hm).mpr h
  exact Real.rpow_pos_of_pos (by linarith) _

/-- **C88**, shear thinning: in its regime, the faster the strain the smaller the viscosity, strictly. -/
theorem C88_mader_thins (rp : ℝ) (hrp : 0 < rp) (s s' : FlowState ℝ) (hl : s.crystal < muellerPacking rp)
    (ht : MaderThinning rp s.crystal) (he : s'.crystal = s.crystal) (hs : 0 < s.strain) (hlt : s.strain < s'.strain) :
    ∃ r r', (RelModel.mader rp).relative s = .ok r ∧ (RelModel.mader rp).relative s' = .ok r' ∧ r' < r := by
  refine ⟨_, _, C88_mader_law rp hrp s hl hs, C88_mader_law rp hrp s' (he ▸ hl) (hs.trans hlt), ?_⟩
  rw [he]; unfold mader; rw [if_pos ht, if_pos ht]
  apply mul_lt_mul_of_pos_left _ (maronPierceLaw_pos (muellerPacking_pos rp) hl)
  exact Real.rpow_lt_rpow_of_neg hs hlt (mader_index_lt ht)

/-- **C88**, what crystals do: up to a strain rate of one per second, the viscosity is at least that of the melt and
    strictly increases with the crystal fraction, across the regimes. -/
theorem C88_mader_increasing (rp : ℝ) (hrp : 0 < rp) (s s' : FlowState ℝ) (h0 : 0 ≤ s.crystal)
    (h : s.crystal < s'.crystal) (hl : s'.crystal < muellerPacking rp) (hs : 0 < s.strain) (hs1 : s.strain ≤ 1)
    (he : s'.strain = s.strain) :
    ∃ r r', (RelModel.mader rp).relative s = .ok r ∧ (RelModel.mader rp).relative s' = .ok r' ∧ 1 ≤ r ∧ r < r' := by
  have hp := muellerPacking_pos rp
  have hl0 : s.crystal < muellerPacking rp := h.trans hl
  refine ⟨_, _, C88_mader_law rp hrp s hl0 hs, C88_mader_law rp hrp s' hl (he ▸ hs), ?_, ?_⟩
  · have m1 : 1 ≤ maronPierceLaw (muellerPacking rp) s.crystal := by
      unfold maronPierceLaw
      have h1 := (div_lt_one hp).mpr hl0
      have h2 : 0 ≤ s.crystal / muellerPacking rp := div_nonneg h0 hp.le
      exact Real.one_le_rpow_of_pos_of_le_one_of_nonpos (by linarith) (by linarith) (by norm_num)
    unfold mader
    split
    · rename_i ht
      have : 1 ≤ s.strain ^ (maderIndex rp s.crystal - 1) :=
        Real.one_le_rpow_of_pos_of_le_one_of_nonpos hs hs1 (mader_index_lt ht).le
      nlinarith
    · exact m1
  · rw [he]
    have hq : s.crystal / muellerPacking rp < s'.crystal / muellerPacking rp := div_lt_div_of_pos_right h hp
    have hq0 : 0 ≤ s.crystal / muellerPacking rp := div_nonneg h0 hp.le
    have hq1 := (div_lt_one hp).mpr hl
    have m : maronPierceLaw (muellerPacking rp) s.crystal < maronPierceLaw (muellerPacking rp) s'.crystal := by
      unfold maronPierceLaw
      exact Real.rpow_lt_rpow_of_neg (by linarith) (by linarith) (by norm_num)
    have mpos := maronPierceLaw_pos hp hl0
    have q4 : (s.crystal / muellerPacking rp) ^ 4 ≤ (s'.crystal / muellerPacking rp) ^ 4 :=
      pow_le_pow_left₀ hq0 hq.le 4
    have hidx : maderIndex rp s'.crystal ≤ maderIndex rp s.crystal := by
      unfold maderIndex
      have : 0.2 * rp * (s.crystal / muellerPacking rp) ^ 4 ≤ 0.2 * rp * (s'.crystal / muellerPacking rp) ^ 4 :=
        mul_le_mul_of_nonneg_left q4 (by positivity)
      linarith
    have tm : MaderThinning rp s.crystal → MaderThinning rp s'.crystal := fun t =>
      ⟨t.1.trans h.le, hidx.trans_lt t.2⟩
    unfold mader
    by_cases t : MaderThinning rp s.crystal
    · rw [if_pos t, if_pos (tm t)]
      have pw : s.strain ^ (maderIndex rp s.crystal - 1) ≤ s.strain ^ (maderIndex rp s'.crystal - 1) :=
        Real.rpow_le_rpow_of_exponent_ge hs hs1 (by linarith)
      have pp : 0 < s.strain ^ (maderIndex rp s.crystal - 1) := Real.rpow_pos_of_pos hs _
      exact mul_lt_mul m pw pp (mpos.trans m).le
    · rw [if_neg t]
      split
      · rename_i t'
        have : 1 ≤ s.strain ^ (maderIndex rp s'.crystal - 1) :=
          Real.one_le_rpow_of_pos_of_le_one_of_nonpos hs hs1 (mader_index_lt t').le
        nlinarith
      · exact m

/-- **C88**, but at high strain rates it does not: in the shear-thinning regime, for every bound there is a strain rate at
    which crystals bring the relative viscosity below it -- crystal-rich lava thinner than its melt. -/
theorem C88_mader_thinner_than_melt (rp : ℝ) (hrp : 0 < rp) (s : FlowState ℝ) (hl : s.crystal < muellerPacking rp)
    (ht : MaderThinning rp s.crystal) (b : ℝ) (hb : 0 < b) :
    ∃ g, 0 < g ∧ ∀ g', g ≤ g' → ∃ r, (RelModel.mader rp).relative { s with strain := g' } = .ok r ∧ r < b := by
  set m := maronPierceLaw (muellerPacking rp) s.crystal with hm
  have mpos : 0 < m := maronPierceLaw_pos (muellerPacking_pos rp) hl
  set e := maderIndex rp s.crystal - 1 with he
  have hneg : e < 0 := mader_index_lt ht
  have hx : 0 < b / (2 * m) := by positivity
  refine ⟨(b / (2 * m)) ^ (e⁻¹), Real.rpow_pos_of_pos hx _, fun g' hg => ?_⟩
  have hg0 : 0 < g' := (Real.rpow_pos_of_pos hx _).trans_le hg
  refine ⟨_, C88_mader_law rp hrp { s with strain := g' } hl hg0, ?_⟩
  unfold mader; dsimp only; rw [if_pos ht, ← hm, ← he]
  have : g' ^ e ≤ b / (2 * m) := by
    calc g' ^ e ≤ ((b / (2 * m)) ^ (e⁻¹)) ^ e :=
          Real.rpow_le_rpow_of_nonpos (Real.rpow_pos_of_pos hx _) hg hneg.le
      _ = b / (2 * m) := by rw [← Real.rpow_mul hx.le, inv_mul_cancel₀ hneg.ne, Real.rpow_one]
  calc m * g' ^ e ≤ m * (b / (2 * m)) := mul_le_mul_of_nonneg_left this mpos.le
    _ = b / 2 := by field_simp
    _ < b := by linarith

/-- The regime exists: aspect ratio 1, crystals at 90 % of the packing limit (55 %). -/
example : 0.495 < muellerPacking 1 ∧ MaderThinning 1 0.495 := by
  have : muellerPacking 1 = 0.55 := by unfold muellerPacking; simp
  unfold MaderThinning maderIndex
  rw [this]; norm_num

end PyFlowGo
