import Verif.Props.KinderVent
import Verif.Props.Yield
import Verif.Props.DepthSearch
import Mathlib.Analysis.Convex.SpecificFunctions.Basic
/-
  C133: the three relative-viscosity laws for crystals and bubbles (ptp1, ptp2, ptp3) against each other.
-/
set_option linter.unusedSectionVars false
namespace PyFlowGo
open Spec

/-! ### The laws on a logarithmic scale -/

/-- The logarithm is strictly concave: a part of the suspended volume takes less than its share. -/
theorem log_share {a b : ℝ} (ha : 0 < a) (hb : 0 < b) (h : a + b < 1) : a / (a + b) * Real.log (1 - a - b) < Real.log (1 - a) := by
  have hs : 0 < a + b := by linarith
  have hd : (1 - a - b : ℝ) ≠ 1 := by linarith
  have hc := strictConcaveOn_log_Ioi.2 (show 1 - a - b ∈ Set.Ioi (0:ℝ) by rw [Set.mem_Ioi]; linarith)
    (show (1:ℝ) ∈ Set.Ioi (0:ℝ) by rw [Set.mem_Ioi]; norm_num) hd (show 0 < a / (a + b) by positivity) (show 0 < b / (a + b) by positivity)
    (by field_simp)
  simp only [smul_eq_mul, Real.log_one, mul_zero, add_zero] at hc
  have e : a / (a + b) * (1 - a - b) + b / (a + b) * 1 = 1 - a := by field_simp; ring
  rw [e] at hc
  exact hc

theorem ptp1_log {φ v : ℝ} (hv : 0 ≤ v) (h0 : 0 ≤ φ) (h : φ + v < 1) :
    phanThienPham1 φ v = Real.exp (-(5 / 2) * Real.log (1 - φ - v) + 3 / 2 * Real.log (1 - v)) := by
  have h1 : 0 < 1 - v := by linarith
  have h2 : 0 < 1 - φ - v := by linarith
  have e : 1 - φ / (1 - v) = (1 - φ - v) / (1 - v) := by field_simp; ring
  unfold phanThienPham1
  rw [e, Real.rpow_def_of_pos (div_pos h2 h1), Real.log_div h2.ne' h1.ne', ← Real.exp_log (inv_pos.mpr h1), ← Real.exp_add, Real.log_inv]
  congr 1; ring

theorem ptp2_log {φ v : ℝ} (hs : 0 < φ + v) (h : φ + v < 1) :
    phanThienPham2 φ v = Real.exp (-Real.log (1 - φ - v) - 3 / 2 * (φ / (φ + v) * Real.log (1 - φ - v))) := by
  unfold phanThienPham2
  rw [Real.rpow_def_of_pos (by linarith)]
  congr 1
  field_simp
  ring

theorem ptp3_log {φ v : ℝ} (hv : 0 ≤ v) (h0 : 0 ≤ φ) (h : φ + v < 1) :
    phanThienPham3 φ v = Real.exp (-Real.log (1 - φ - v) - 3 / 2 * Real.log (1 - φ)) := by
  have h1 : 0 < 1 - φ := by linarith
  have h2 : 0 < 1 - φ - v := by linarith
  have e : (1 - v / (1 - φ))⁻¹ = (1 - φ) / (1 - φ - v) := by
    rw [show 1 - v / (1 - φ) = (1 - φ - v) / (1 - φ) by field_simp, inv_div]
  unfold phanThienPham3
  rw [e, Real.rpow_def_of_pos h1, ← Real.exp_log (div_pos h1 h2), ← Real.exp_add, Real.log_div h1.ne' h2.ne']
  congr 1; ring

/-- Both phases: strictly ordered. -/
theorem ptp_strict {φ v : ℝ} (hv : 0 < v) (h0 : 0 < φ) (h : φ + v < 1) :
    phanThienPham3 φ v < phanThienPham2 φ v ∧ phanThienPham2 φ v < phanThienPham1 φ v := by
  have hs : 0 < φ + v := by linarith
  have k1 := log_share h0 hv h
  have k2 := log_share hv h0 (by linarith)
  rw [add_comm v φ, show 1 - v - φ = 1 - φ - v by ring] at k2
  rw [ptp1_log hv.le h0.le h, ptp2_log hs h, ptp3_log hv.le h0.le h, Real.exp_lt_exp, Real.exp_lt_exp]
  have e : φ / (φ + v) * Real.log (1 - φ - v) = Real.log (1 - φ - v) - v / (φ + v) * Real.log (1 - φ - v) := by
    field_simp; ring
  constructor
  · linarith
  · rw [e]; linarith

theorem ptp_no_crystals {v : ℝ} (hv : 0 < v) (h : v < 1) :
    phanThienPham1 0 v = 1 / (1 - v) ∧ phanThienPham2 0 v = 1 / (1 - v) ∧ phanThienPham3 0 v = 1 / (1 - v) := by
  refine ⟨?_, ?_, ?_⟩
  · unfold phanThienPham1; norm_num
  · unfold phanThienPham2
    have e : -((5 * 0 + 2 * v) / (2 * (0 + v))) = (-1 : ℝ) := by field_simp; ring
    rw [e, sub_zero, Real.rpow_neg_one, one_div]
  · unfold phanThienPham3; norm_num

theorem ptp_no_bubbles {φ : ℝ} (h0 : 0 < φ) :
    phanThienPham1 φ 0 = (1 - φ) ^ (-(5 / 2) : ℝ) ∧ phanThienPham2 φ 0 = (1 - φ) ^ (-(5 / 2) : ℝ) ∧
      phanThienPham3 φ 0 = (1 - φ) ^ (-(5 / 2) : ℝ) := by
  refine ⟨?_, ?_, ?_⟩
  · unfold phanThienPham1; norm_num
  · unfold phanThienPham2
    have e : -((5 * φ + 2 * 0) / (2 * (φ + 0))) = (-(5 / 2) : ℝ) := by field_simp; ring
    rw [e, sub_zero]
  · unfold phanThienPham3; norm_num

/-! ### The models -/

/-- ptp2 without bubbles (C29 has it with bubbles): it needs some crystals or some bubbles. -/
theorem ptp2_relative (ves : VesicleModel ℝ) (s : FlowState ℝ) (hs : 0 < s.crystal + ves.fraction s) (h : s.crystal + ves.fraction s < 1) :
    (RelModel.ptp2 ves).relative s = .ok (phanThienPham2 s.crystal (ves.fraction s)) := by
  unfold RelModel.relative
  dsimp only
  rw [one_lit, div_of_ne (by linarith), ok_bind, mpow_of_pos]
  · unfold phanThienPham2
    norm_num
  · linarith

/-- **C133**, one phase. With bubbles only (fraction `v`) all three models give `1/(1-v)`; with crystals only (fraction `φ`) all three give `(1-φ)^(-5/2)`, the
    law of Einstein and Roscoe without its factor 1.51. -/
theorem C133_one_phase (ves : VesicleModel ℝ) (s : FlowState ℝ) (h0 : 0 ≤ s.crystal) (hv : 0 ≤ ves.fraction s)
    (hs : 0 < s.crystal + ves.fraction s) (h : s.crystal + ves.fraction s < 1) (m : VesicleModel ℝ → RelModel ℝ)
    (hm : m = .ptp1 ∨ m = .ptp2 ∨ m = .ptp3) :
    (s.crystal = 0 → (m ves).relative s = .ok (1 / (1 - ves.fraction s))) ∧
    (ves.fraction s = 0 → (m ves).relative s = .ok ((1 - s.crystal) ^ (-(5 / 2) : ℝ))) := by
  have k1 := C29_relative_viscosity_laws (.ptp1 ves) s ⟨hv, by linarith⟩ h0 (by simp only [packingLimit]; linarith)
  have k2 := ptp2_relative ves s hs h
  have k3 := C29_relative_viscosity_laws (.ptp3 ves) s ⟨hv, by linarith⟩ h0 (by simp only [packingLimit]; linarith)
  simp only [relLaw] at k1 k3
  constructor
  · intro e
    rw [e] at k1 k2 k3 hs
    obtain ⟨l1, l2, l3⟩ := ptp_no_crystals (v := ves.fraction s) (by linarith) (by linarith)
    rcases hm with rfl | rfl | rfl
    · rw [k1, l1]
    · rw [k2, l2]
    · rw [k3, l3]
  · intro e
    rw [e] at k1 k2 k3 hs
    obtain ⟨l1, l2, l3⟩ := ptp_no_bubbles (φ := s.crystal) (by linarith)
    rcases hm with rfl | rfl | rfl
    · rw [k1, l1]
    · rw [k2, l2]
    · rw [k3, l3]

/-- **C133**, the order. For lava with crystals or bubbles (or both) that fill less than the whole volume, all three models give a number; ptp3 never gives more than ptp2 nor
    ptp2 more than ptp1; and two of the three agree exactly when there are no crystals or no bubbles. -/
theorem C133_order (ves : VesicleModel ℝ) (s : FlowState ℝ) (h0 : 0 ≤ s.crystal) (hv : 0 ≤ ves.fraction s)
    (hs : 0 < s.crystal + ves.fraction s) (h : s.crystal + ves.fraction s < 1) :
    ∃ r1 r2 r3, (RelModel.ptp1 ves).relative s = .ok r1 ∧ (RelModel.ptp2 ves).relative s = .ok r2 ∧ (RelModel.ptp3 ves).relative s = .ok r3 ∧
      1 ≤ r3 ∧ r3 ≤ r2 ∧ r2 ≤ r1 ∧
      (r3 = r2 ↔ s.crystal = 0 ∨ ves.fraction s = 0) ∧ (r2 = r1 ↔ s.crystal = 0 ∨ ves.fraction s = 0) := by
  have k1 := C29_relative_viscosity_laws (.ptp1 ves) s ⟨hv, by linarith⟩ h0 (by simp only [packingLimit]; linarith)
  have k2 := ptp2_relative ves s hs h
  have k3 := C29_relative_viscosity_laws (.ptp3 ves) s ⟨hv, by linarith⟩ h0 (by simp only [packingLimit]; linarith)
  have g3 := relLaw_ge_one (.ptp3 ves) s ⟨hv, by linarith⟩ s.crystal h0 (by simp only [packingLimit]; linarith)
  simp only [relLaw] at k1 k3 g3
  refine ⟨_, _, _, k1, k2, k3, g3, ?_⟩
  rcases h0.eq_or_lt with e | e
  · rw [← e] at hs h ⊢
    obtain ⟨l1, l2, l3⟩ := ptp_no_crystals (v := ves.fraction s) (by linarith) (by linarith)
    rw [l1, l2, l3]; simp
  rcases hv.eq_or_lt with f | f
  · rw [← f]
    obtain ⟨l1, l2, l3⟩ := ptp_no_bubbles e
    rw [l1, l2, l3]; simp
  · obtain ⟨q1, q2⟩ := ptp_strict f e h
    refine ⟨q1.le, q2.le, ⟨fun q => absurd q q1.ne, ?_⟩, ⟨fun q => absurd q q2.ne, ?_⟩⟩ <;>
    · rintro (q | q) <;> linarith

/-! ### What the order means for the flow -/

/-- Swapping the relative-viscosity model of a lava (whose bubble factor does not use it) for one that gives less: the bulk viscosity goes down in proportion. -/
theorem bulk_swap (l : Lava ℝ) (m m' : RelModel ℝ) (s : FlowState ℝ) (hmelt : MeltValid l.melt) (hbub : Spec.bubVesicles s l.bub < 1) {r r' mu mu' : ℝ}
    (hr : m.relative s = .ok r) (hr' : m'.relative s = .ok r') (h1 : 1 ≤ r') (hmu : ({ l with rel := m } : Lava ℝ).bulkViscosity s = .ok mu)
    (hmu' : ({ l with rel := m' } : Lava ℝ).bulkViscosity s = .ok mu') : 0 < mu' ∧ (r' ≤ r → mu' ≤ mu) ∧ (r' < r → mu' < mu) := by
  obtain ⟨a, b, c, ha, hb, hc, rfl⟩ := (C33_bulk_is_product _ s mu).mp hmu
  obtain ⟨a', b', c', ha', hb', hc', rfl⟩ := (C33_bulk_is_product _ s mu').mp hmu'
  dsimp only at ha hb hc ha' hb' hc'
  rw [ha] at ha'; rw [hc] at hc'; rw [hr] at hb; rw [hr'] at hb'
  obtain rfl := Except.ok.inj ha'
  obtain rfl := Except.ok.inj hc'
  obtain rfl := Except.ok.inj hb
  obtain rfl := Except.ok.inj hb'
  have hap := melt_pos_of_ok _ hmelt _ _ ha
  have hcp := bub_pos _ _ hbub _ hc
  refine ⟨by positivity, fun h => by gcongr, fun h => by gcongr⟩

/-- The same for the mean velocity: less viscosity, more velocity. -/
theorem velocity_swap (l : Lava ℝ) (m m' : RelModel ℝ) (T : Terrain ℝ) (s : FlowState ℝ) (hmelt : MeltValid l.melt) (hbub : Spec.bubVesicles s l.bub < 1)
    (h0 : 0 ≤ s.crystal) (hd : 0 < T.depth) {tb : ℝ} (hb : l.basalStress T s = .ok tb) (htb : 0 < tb) {r r' v x v' x' : ℝ}
    (hr : m.relative s = .ok r) (hr' : m'.relative s = .ok r') (h1 : 1 ≤ r')
    (hv : ({ l with rel := m } : Lava ℝ).meanVelocity T s = .ok (v, x)) (hv' : ({ l with rel := m' } : Lava ℝ).meanVelocity T s = .ok (v', x')) :
    (r' ≤ r → v ≤ v') ∧ (r' < r → l.yieldStrength s ≠ .ok tb → v < v') := by
  obtain ⟨t0, tb1, mu, e1, e2, e3, -, -, -, rfl, -⟩ := (meanVelocity_ok_iff _ _ _ _ _).mp hv
  obtain ⟨t0', tb1', mu', f1, f2, f3, -, -, -, rfl, -⟩ := (meanVelocity_ok_iff _ _ _ _ _).mp hv'
  obtain ⟨g1, g2, g3⟩ := bulk_swap l m m' s hmelt hbub hr hr' h1 e3 f3
  have e1' : l.yieldStrength s = .ok t0 := e1
  have f1' : l.yieldStrength s = .ok t0' := f1
  have e2' : l.basalStress T s = .ok tb1 := e2
  have f2' : l.basalStress T s = .ok tb1' := f2
  rw [hb] at e2' f2'; rw [e1'] at f1'
  obtain rfl := Except.ok.inj e2'
  obtain rfl := Except.ok.inj f2'
  obtain rfl := Except.ok.inj f1'
  obtain ⟨t, k1, k2, -⟩ := C34_yield_nonneg l.yld s h0
  have k1' : l.yieldStrength s = .ok t := k1
  rw [e1'] at k1'
  obtain rfl := Except.ok.inj k1'
  constructor
  · intro h
    rcases (g2 h).eq_or_lt with e | e
    · rw [e]
    · by_cases hne : t0 = tb
      · have hmu : 0 < mu := g1.trans e
        rw [(bingham_eq_zero hd htb hmu k2).mpr hne, (bingham_eq_zero hd htb g1 k2).mpr hne]
      · exact (bingham_strictAnti_visc hd htb g1 e k2 hne).le
  · intro h hne
    refine bingham_strictAnti_visc hd htb g1 (g3 h) k2 (fun e => hne ?_)
    rw [e1', e]

/-- **C133**, the velocity. The same lava in the same channel (positive depth and basal stress; the same bubble factor) is slowest with
    ptp1 and fastest with ptp3; strictly so if it has crystals and bubbles, unless it just stands (yield strength equal to basal stress). -/
theorem C133_velocity (l : Lava ℝ) (ves : VesicleModel ℝ) (T : Terrain ℝ) (s : FlowState ℝ) (hmelt : MeltValid l.melt) (hbub : Spec.bubVesicles s l.bub < 1)
    (hd : 0 < T.depth) (tb : ℝ) (hb : l.basalStress T s = .ok tb) (htb : 0 < tb)
    (h0 : 0 ≤ s.crystal) (hv : 0 ≤ ves.fraction s) (hs : 0 < s.crystal + ves.fraction s) (h : s.crystal + ves.fraction s < 1) (v1 v2 v3 x1 x2 x3 : ℝ)
    (h1 : ({ l with rel := .ptp1 ves } : Lava ℝ).meanVelocity T s = .ok (v1, x1)) (h2 : ({ l with rel := .ptp2 ves } : Lava ℝ).meanVelocity T s = .ok (v2, x2))
    (h3 : ({ l with rel := .ptp3 ves } : Lava ℝ).meanVelocity T s = .ok (v3, x3)) :
    v1 ≤ v2 ∧ v2 ≤ v3 ∧ (0 < s.crystal → 0 < ves.fraction s → l.yieldStrength s ≠ .ok tb → v1 < v2 ∧ v2 < v3) := by
  obtain ⟨r1, r2, r3, k1, k2, k3, g, o1, o2, i1, i2⟩ := C133_order ves s h0 hv hs h
  have a := velocity_swap l _ _ T s hmelt hbub h0 hd hb htb k1 k2 (g.trans o1) h1 h2
  have b := velocity_swap l _ _ T s hmelt hbub h0 hd hb htb k2 k3 g h2 h3
  refine ⟨a.1 o2, b.1 o1, fun p q hy => ?_⟩
  have n1 : r3 ≠ r2 := fun e => by rcases i1.mp e with f | f <;> linarith
  have n2 : r2 ≠ r1 := fun e => by rcases i2.mp e with f | f <;> linarith
  exact ⟨a.2 (lt_of_le_of_ne o2 n2) hy, b.2 (lt_of_le_of_ne o1 n1) hy⟩

/-- A vent is easier with the thinner of two relative-viscosity models. -/
theorem easier_swap (l : Lava ℝ) (m m' : RelModel ℝ) (w : World ℝ) (hmelt : MeltValid l.melt) (hbub : Spec.bubVesicles w.st l.bub < 1)
    (h0 : 0 ≤ w.st.crystal) (hwid : 0 ≤ w.terrain.width) (hb : ∀ d b, 0 < d → l.basalStress { w.terrain with depth := d } w.st = .ok b → 0 < b) {r r' : ℝ}
    (hr : m.relative w.st = .ok r) (hr' : m'.relative w.st = .ok r') (h1 : 1 ≤ r') (hle : r' ≤ r) :
    EasierVent { l with rel := m } { l with rel := m' } w w := by
  refine ⟨?_, ?_, ?_, ⟨hwid, le_rfl⟩, le_rfl⟩
  · intro t t' e e'
    have e : l.yieldStrength w.st = .ok t := e
    have e' : l.yieldStrength w.st = .ok t' := e'
    obtain ⟨q, k1, k2, -⟩ := C34_yield_nonneg l.yld w.st h0
    have k1' : l.yieldStrength w.st = .ok q := k1
    rw [k1'] at e e'
    obtain rfl := Except.ok.inj e
    obtain rfl := Except.ok.inj e'
    exact ⟨k2, le_rfl⟩
  · intro mu mu' e e'
    obtain ⟨g1, g2, -⟩ := bulk_swap l m m' w.st hmelt hbub hr hr' h1 e e'
    exact ⟨g1, g2 hle⟩
  · intro d b b' hd e e'
    have e : l.basalStress { w.terrain with depth := d } w.st = .ok b := e
    have e' : l.basalStress { w.terrain with depth := d } w.st = .ok b' := e'
    rw [e] at e'
    obtain rfl := Except.ok.inj e'
    exact ⟨hb d b hd e, le_rfl⟩

/-- **C133**, the channel. Three depth searches for the same effusion rate (not zero) at the same vent, for a lava whose bubble factor does not read the strain rate, with ptp1, ptp2 and ptp3
    as relative-viscosity model: the channel found with ptp3 is not deeper than that found with ptp2, and that not deeper than the one found with ptp1 (if the lava moves in the deeper one). -/
theorem C133_channel (l : Lava ℝ) (ves : VesicleModel ℝ) (w : World ℝ) (hmelt : MeltValid l.melt) (hbub : Spec.bubVesicles w.st l.bub < 1)
    (hnot : ∀ a b c d e, l.bub ≠ .mader a b c d e) (hwid : 0 ≤ w.terrain.width) (hrate : w.terrain.effusionRateInit ≠ 0)
    (hb : ∀ d b, 0 < d → l.basalStress { w.terrain with depth := d } w.st = .ok b → 0 < b)
    (h0 : 0 ≤ w.st.crystal) (hv : 0 ≤ ves.fraction w.st) (hs : 0 < w.st.crystal + ves.fraction w.st) (h : w.st.crystal + ves.fraction w.st < 1)
    (w1 w2 w3 : World ℝ) (h1 : initEffusionRate { l with rel := .ptp1 ves } w = (.ok (), w1)) (h2 : initEffusionRate { l with rel := .ptp2 ves } w = (.ok (), w2))
    (h3 : initEffusionRate { l with rel := .ptp3 ves } w = (.ok (), w3)) :
    (l.yieldNotCompatible w1.terrain w.st = .ok false → w2.terrain.depth ≤ w1.terrain.depth) ∧
    (l.yieldNotCompatible w2.terrain w.st = .ok false → w3.terrain.depth ≤ w2.terrain.depth) := by
  obtain ⟨r1, r2, r3, k1, k2, k3, g, o1, o2, i1, i2⟩ := C133_order ves w.st h0 hv hs h
  have ind : ∀ m : RelModel ℝ, (∀ a b c d e f g i, m ≠ .bll a b c d e f g i) → (∀ a, m ≠ .mader a) → StrainIndependent { l with rel := m } :=
    fun m p q => C22_which_models_are_strain_independent _ p q hnot
  have d1 := ind (.ptp1 ves) (fun _ _ _ _ _ _ _ _ e => by cases e) (fun _ e => by cases e)
  have d2 := ind (.ptp2 ves) (fun _ _ _ _ _ _ _ _ e => by cases e) (fun _ e => by cases e)
  have d3 := ind (.ptp3 ves) (fun _ _ _ _ _ _ _ _ e => by cases e) (fun _ e => by cases e)
  exact ⟨fun hm => C126_search depthGrid grid_nonempty C97_program_depths.2 grid_pos _ _ d1 d2 w w hrate hrate
      (easier_swap l _ _ w hmelt hbub h0 hwid hb k1 k2 (g.trans o1) o2) w1 w2 h1 h2 hm,
    fun hm => C126_search depthGrid grid_nonempty C97_program_depths.2 grid_pos _ _ d2 d3 w w hrate hrate
      (easier_swap l _ _ w hmelt hbub h0 hwid hb k2 k3 g o1) w2 w3 h2 h3 hm⟩

/-! ### Examples -/

/-- The order, with 30 % crystals and 20 % bubbles: strict. -/
example : ∃ r1 r2 r3, (RelModel.ptp1 (.constant 0.2)).relative (exState 0.3 0) = .ok r1 ∧ (RelModel.ptp2 (.constant 0.2)).relative (exState 0.3 0) = .ok r2 ∧
    (RelModel.ptp3 (.constant 0.2)).relative (exState 0.3 0) = .ok r3 ∧ 1 ≤ r3 ∧ r3 < r2 ∧ r2 < r1 := by
  have e : (VesicleModel.constant (0.2 : ℝ)).fraction (exState 0.3 0) = 0.2 := rfl
  obtain ⟨r1, r2, r3, k1, k2, k3, g, o1, o2, i1, i2⟩ := C133_order (.constant 0.2) (exState 0.3 0) (by norm_num [exState]) (by rw [e]; norm_num)
    (by rw [e]; norm_num [exState]) (by rw [e]; norm_num [exState])
  rw [e] at i1 i2
  refine ⟨r1, r2, r3, k1, k2, k3, g, lt_of_le_of_ne o1 (fun q => ?_), lt_of_le_of_ne o2 (fun q => ?_)⟩
  · have := i1.mp q; norm_num [exState] at this
  · have := i2.mp q; norm_num [exState] at this

/-- One phase: 20 % bubbles give 1.25 with all three models. -/
example (m : VesicleModel ℝ → RelModel ℝ) (hm : m = .ptp1 ∨ m = .ptp2 ∨ m = .ptp3) :
    (m (.constant 0.2)).relative (exState 0 0) = .ok 1.25 := by
  have e : (VesicleModel.constant (0.2 : ℝ)).fraction (exState 0 0) = 0.2 := rfl
  have := (C133_one_phase (.constant 0.2) (exState 0 0) (by norm_num [exState]) (by rw [e]; norm_num) (by rw [e]; norm_num [exState])
    (by rw [e]; norm_num [exState]) m hm).1 rfl
  rw [this, e]
  norm_num

/-- A channel in which this lava moves at every depth of the search. -/
theorem ptp_velocity (m : RelModel ℝ) {r : ℝ} (hr : m.relative (exState 0.3 0) = .ok r) (h1 : 1 ≤ r) (d : ℝ) (hd : 0 < d) :
    ∃ v x, (exLava 1 m .ryerson).meanVelocity { exTerrain 1000000 with depth := d, effusionRateInit := 1 } (exState 0.3 0) = .ok (v, x) := by
  obtain ⟨t, k1, k2, -⟩ := C34_yield_nonneg .ryerson (exState 0.3 0) (by norm_num [exState])
  exact ⟨_, _, (meanVelocity_ok_iff _ _ _ _ _).mpr ⟨t, d * 1000000, 1 * r, k1, exLava_basal_depth _ _ _ _ _ _ _, exLava_bulk _ _ _ _ _ _ hr,
    by linarith, by positivity, hd.ne', rfl, rfl⟩⟩

theorem ptp_moves (T : Terrain ℝ) (hT : ∃ d, 0.01 ≤ d ∧ T = { exTerrain 1000000 with depth := d, effusionRateInit := 1 }) (m : RelModel ℝ) :
    (exLava 1 m .ryerson).yieldNotCompatible T (exState 0.3 0) = .ok false ∧ (exLava 1 m .ryerson).yieldStrength (exState 0.3 0) ≠
      (exLava 1 m .ryerson).basalStress T (exState 0.3 0) := by
  obtain ⟨d, hd, rfl⟩ := hT
  have k1 := C34_yield_laws .ryerson (exState 0.3 0) (by norm_num [exState])
  have k1' : (exLava 1 m .ryerson).yieldStrength (exState 0.3 0) = .ok (yieldRyerson 0.3) := k1
  have hle : yieldRyerson 0.3 ≤ 6500 := by
    unfold yieldRyerson
    have : (0.3 : ℝ) ^ (2.85 : ℝ) ≤ 1 := Real.rpow_le_one (by norm_num) (by norm_num) (by norm_num)
    nlinarith
  constructor
  · unfold Lava.yieldNotCompatible
    rw [k1', ok_bind, exLava_basal_depth, ok_bind, pure_ok_iff, ← Bool.not_eq_true, leB_real, not_le]
    nlinarith
  · rw [k1', exLava_basal_depth]
    intro e
    have := Except.ok.inj e
    nlinarith

/-- The velocities of lava with 30 % crystals and 20 % bubbles in a channel one metre deep: strictly ordered. -/
example : ∃ v1 v2 v3 x1 x2 x3, (exLava 1 (.ptp1 (.constant 0.2)) .ryerson).meanVelocity { exTerrain 1000000 with depth := 1, effusionRateInit := 1 } (exState 0.3 0) = .ok (v1, x1) ∧
    (exLava 1 (.ptp2 (.constant 0.2)) .ryerson).meanVelocity { exTerrain 1000000 with depth := 1, effusionRateInit := 1 } (exState 0.3 0) = .ok (v2, x2) ∧
    (exLava 1 (.ptp3 (.constant 0.2)) .ryerson).meanVelocity { exTerrain 1000000 with depth := 1, effusionRateInit := 1 } (exState 0.3 0) = .ok (v3, x3) ∧
    v1 < v2 ∧ v2 < v3 := by
  have e : (VesicleModel.constant (0.2 : ℝ)).fraction (exState 0.3 0) = 0.2 := rfl
  have p1 : 0 ≤ (exState 0.3 0).crystal := by norm_num [exState]
  have p2 : 0 ≤ (VesicleModel.constant (0.2 : ℝ)).fraction (exState 0.3 0) := by rw [e]; norm_num
  have p3 : 0 < (exState 0.3 0).crystal + (VesicleModel.constant (0.2 : ℝ)).fraction (exState 0.3 0) := by rw [e]; norm_num [exState]
  have p4 : (exState 0.3 0).crystal + (VesicleModel.constant (0.2 : ℝ)).fraction (exState 0.3 0) < 1 := by rw [e]; norm_num [exState]
  obtain ⟨r1, r2, r3, k1, k2, k3, g, o1, o2, i1, i2⟩ := C133_order (.constant 0.2) (exState 0.3 0) p1 p2 p3 p4
  obtain ⟨v1, x1, h1⟩ := ptp_velocity _ k1 (g.trans (o1.trans o2)) 1 one_pos
  obtain ⟨v2, x2, h2⟩ := ptp_velocity _ k2 (g.trans o1) 1 one_pos
  obtain ⟨v3, x3, h3⟩ := ptp_velocity _ k3 g 1 one_pos
  have hb := exLava_basal_depth 1000000 1 1 .er .ryerson (exState 0.3 0) 1
  have := (C133_velocity (exLava 1 .er .ryerson) (.constant 0.2) _ (exState 0.3 0) (by show (0:ℝ) < 1; norm_num) (by show (0:ℝ) < 1; norm_num)
    (by show (0:ℝ) < 1; norm_num) _ hb (by norm_num) p1 p2 p3 p4 v1 v2 v3 x1 x2 x3 h1 h2 h3).2.2 (by norm_num [exState]) (by rw [e]; norm_num)
    (by rw [← hb]; exact (ptp_moves _ ⟨1, by norm_num, rfl⟩ .er).2)
  exact ⟨v1, v2, v3, x1, x2, x3, h1, h2, h3, this.1, this.2⟩

/-- The three searches for one cubic metre per second end, and the channels are ordered. -/
example : ∃ w1 w2 w3 : World ℝ,
    initEffusionRate (exLava 1 (.ptp1 (.constant 0.2)) .ryerson) (newWorld { exTerrain 1000000 with effusionRateInit := 1 } (exState 0.3 0) []) = (.ok (), w1) ∧
    initEffusionRate (exLava 1 (.ptp2 (.constant 0.2)) .ryerson) (newWorld { exTerrain 1000000 with effusionRateInit := 1 } (exState 0.3 0) []) = (.ok (), w2) ∧
    initEffusionRate (exLava 1 (.ptp3 (.constant 0.2)) .ryerson) (newWorld { exTerrain 1000000 with effusionRateInit := 1 } (exState 0.3 0) []) = (.ok (), w3) ∧
    w3.terrain.depth ≤ w2.terrain.depth ∧ w2.terrain.depth ≤ w1.terrain.depth := by
  have e : (VesicleModel.constant (0.2 : ℝ)).fraction (exState 0.3 0) = 0.2 := rfl
  have p1 : 0 ≤ (exState 0.3 0).crystal := by norm_num [exState]
  have p2 : 0 ≤ (VesicleModel.constant (0.2 : ℝ)).fraction (exState 0.3 0) := by rw [e]; norm_num
  have p3 : 0 < (exState 0.3 0).crystal + (VesicleModel.constant (0.2 : ℝ)).fraction (exState 0.3 0) := by rw [e]; norm_num [exState]
  have p4 : (exState 0.3 0).crystal + (VesicleModel.constant (0.2 : ℝ)).fraction (exState 0.3 0) < 1 := by rw [e]; norm_num [exState]
  obtain ⟨r1, r2, r3, k1, k2, k3, g, o1, o2, i1, i2⟩ := C133_order (.constant 0.2) (exState 0.3 0) p1 p2 p3 p4
  have search : ∀ (m : RelModel ℝ) (r : ℝ), StrainIndependent (exLava 1 m .ryerson) → m.relative (exState 0.3 0) = .ok r → 1 ≤ r →
      ∃ w', initEffusionRate (exLava 1 m .ryerson) (newWorld { exTerrain 1000000 with effusionRateInit := 1 } (exState 0.3 0) []) = (.ok (), w') ∧
        ∃ d, 0.01 ≤ d ∧ w'.terrain = { exTerrain 1000000 with depth := d, effusionRateInit := 1 } := by
    intro m r hl hr h1
    obtain ⟨w', h⟩ := C25_no_error _ hl (newWorld { exTerrain 1000000 with effusionRateInit := 1 } (exState 0.3 0) []) (fun k _ => by
      obtain ⟨v, x, q⟩ := ptp_velocity m hr h1 _ (gridDepth_pos k)
      exact ⟨_, v, x, q, rfl⟩)
    refine ⟨w', h, ?_⟩
    have hr1 : (newWorld { exTerrain 1000000 with effusionRateInit := 1 } (exState 0.3 0) [] : World ℝ).terrain.effusionRateInit ≠ 0 := one_ne_zero
    obtain ⟨k, hk, hd, -⟩ := C25_smallest_sufficient_depth _ hl _ _ hr1 h
    unfold initEffusionRate at h
    rw [search_of_rate _ _ _ hr1] at h
    obtain ⟨k', v, y, -, -, -, -, e⟩ := search_found _ hl _ grid_nonempty _ _ h
    generalize (depthGrid : List ℝ).getD k' 0 = D at e
    refine ⟨gridDepth k, by unfold gridDepth; have : (0:ℝ) ≤ k := Nat.cast_nonneg k; linarith, ?_⟩
    rw [← hd, e]
    simp only [newWorld]
  have ind : ∀ m : RelModel ℝ, (∀ a b c d e f g i, m ≠ .bll a b c d e f g i) → (∀ a, m ≠ .mader a) → StrainIndependent (exLava 1 m .ryerson) :=
    fun m p q => C22_which_models_are_strain_independent _ p q (fun _ _ _ _ _ e => by cases e)
  obtain ⟨w1, a1, b1⟩ := search (.ptp1 (.constant 0.2)) r1 (ind _ (fun _ _ _ _ _ _ _ _ e => by cases e) (fun _ e => by cases e)) k1 (g.trans (o1.trans o2))
  obtain ⟨w2, a2, b2⟩ := search (.ptp2 (.constant 0.2)) r2 (ind _ (fun _ _ _ _ _ _ _ _ e => by cases e) (fun _ e => by cases e)) k2 (g.trans o1)
  obtain ⟨w3, a3, b3⟩ := search (.ptp3 (.constant 0.2)) r3 (ind _ (fun _ _ _ _ _ _ _ _ e => by cases e) (fun _ e => by cases e)) k3 g
  have := C133_channel (exLava 1 .er .ryerson) (.constant 0.2) (newWorld { exTerrain 1000000 with effusionRateInit := 1 } (exState 0.3 0) [])
    (by show (0:ℝ) < 1; norm_num) (by show (0:ℝ) < 1; norm_num) (fun _ _ _ _ _ e => by cases e) (by show (0:ℝ) ≤ 1; norm_num) one_ne_zero
    (fun d b hd e => by
      have := exLava_basal_depth 1000000 d 1 .er .ryerson (exState 0.3 0) 1
      have e : (exLava 1 .er .ryerson).basalStress { exTerrain 1000000 with depth := d, effusionRateInit := 1 } (exState 0.3 0) = .ok b := e
      rw [this] at e
      rw [← Except.ok.inj e]; positivity)
    p1 p2 p3 p4 w1 w2 w3 a1 a2 a3
  exact ⟨w1, w2, w3, a1, a2, a3, this.2 (ptp_moves _ b2 .er).1, this.1 (ptp_moves _ b1 .er).1⟩

end PyFlowGo
