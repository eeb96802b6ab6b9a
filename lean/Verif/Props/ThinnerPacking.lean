import Verif.Props.ThinnerExample
/-
  C134: the packing laws. Maron-Pierce with a larger maximum packing is not thicker; Krieger-Dougherty with a smaller Einstein coefficient is not thicker; and the two are ordered by the product of
  Einstein coefficient and maximum packing.
-/
set_option linter.unusedSectionVars false
namespace PyFlowGo
open Spec

/-- What `kd` and `mp` share: whoever has room below a smaller packing has room below a larger one. -/
theorem packing_room {s : FlowState ℝ} {φ φ' : ℝ} (hφ' : 0 < φ') (hle : φ' ≤ φ) (hc : (do let q ← PyNum.div s.crystal φ'; return ltB 1.0 q : Except Err Bool) = .ok false)
    (hp : ¬ s.crystal = φ') : (do let q ← PyNum.div s.crystal φ; return ltB 1.0 q : Except Err Bool) = .ok false ∧ ¬ s.crystal = φ ∧ s.crystal < φ' := by
  have hφ : 0 < φ := hφ'.trans_le hle
  rw [div_of_ne hφ'.ne', ok_bind, pure_ok_iff, ← Bool.not_eq_true, ltB_real, one_lit, not_lt, div_le_one hφ'] at hc
  have hlt := lt_of_le_of_ne hc hp
  refine ⟨?_, (hlt.trans_le hle).ne, hlt⟩
  rw [div_of_ne hφ.ne', ok_bind, pure_ok_iff, ← Bool.not_eq_true, ltB_real, one_lit, not_lt, div_le_one hφ]
  linarith

/-- Two lavas that differ in the crystal law only. -/
theorem rel_not_thicker {x0 Ts : ℝ} {l : Lava ℝ} {m m' : RelModel ℝ} (hm : MeltAbove Ts l.melt) (hn : ∀ a b c d e, l.bub ≠ .mader a b c d e) (hb : BubSensible x0 Ts m l.bub)
    (room : ∀ s : FlowState ℝ, 0 ≤ s.crystal → m'.notCompatible s = .ok false → ¬ AtPacking s m' → m.notCompatible s = .ok false ∧ ¬ AtPacking s m)
    (law : ∀ (s : FlowState ℝ) (b b' : ℝ), 0 ≤ s.crystal → m'.notCompatible s = .ok false → ¬ AtPacking s m' → m.relative s = .ok b → m'.relative s = .ok b' → b ≤ b') :
    NotThicker Ts x0 { l with rel := m } { l with rel := m' } := by
  refine ⟨fun s _ h0 _ h1 h2 => room s h0 h1 h2, fun s mu mu' hx h0 hT hc hp h1 h2 => ?_, same_strength rfl⟩
  obtain ⟨a, b, c, ha, hb1, hc1, rfl⟩ := (C33_bulk_is_product _ s mu).mp h1
  obtain ⟨a', b', c', ha', hb2, hc2, rfl⟩ := (C33_bulk_is_product _ s mu').mp h2
  dsimp only at ha hb1 hc1 ha' hb2 hc2
  rw [ha] at ha'; rw [hc1] at hc2
  cases ha'; cases hc2
  have hbv : Spec.bubVesicles s l.bub < 1 := by
    cases hbe : l.bub with
    | no => unfold Spec.bubVesicles; norm_num
    | rigid v => rw [hbe] at hb; exact (hb s hx).2
    | defo v => rw [hbe] at hb; exact (hb s hx).2
    | mader a b c d e => exact absurd hbe (hn _ _ _ _ _)
  have := law s b b' h0 hc hp hb1 hb2
  have hap := melt_pos_of_ok _ hm.1 _ _ ha
  have hcp := bub_pos _ _ hbv _ hc1
  gcongr

/-- **C134**, the packing laws. -/
theorem C134_packing (x0 Ts : ℝ) (l : Lava ℝ) (hm : MeltAbove Ts l.melt) (hn : ∀ a b c d e, l.bub ≠ .mader a b c d e) (hb : ∀ m, BubSensible x0 Ts m l.bub) (φ φ' be be' : ℝ) (h0 : 0 < φ') :
    (φ' ≤ φ → NotThicker Ts x0 { l with rel := .mp φ } { l with rel := .mp φ' }) ∧
    (0 < be → be ≤ be' → NotThicker Ts x0 { l with rel := .kd φ' be } { l with rel := .kd φ' be' }) ∧
    (0 < be → be * φ' ≤ 2 → NotThicker Ts x0 { l with rel := .kd φ' be } { l with rel := .mp φ' }) ∧
    (0 < be → 2 ≤ be * φ' → NotThicker Ts x0 { l with rel := .mp φ' } { l with rel := .kd φ' be }) := by
  have one : ∀ {s : FlowState ℝ} {p : ℝ}, 0 < p → 0 ≤ s.crystal → s.crystal < p → 0 < 1 - s.crystal / p ∧ 1 - s.crystal / p ≤ 1 := by
    intro s p hp h0 h
    have h1 : s.crystal / p < 1 := (div_lt_one hp).mpr h
    have h2 : 0 ≤ s.crystal / p := by positivity
    exact ⟨by linarith, by linarith⟩
  have mpl : ∀ {s : FlowState ℝ} {p b : ℝ}, 0 < p → 0 ≤ s.crystal → s.crystal < p → (RelModel.mp p).relative s = .ok b → b = maronPierceLaw p s.crystal := by
    intro s p b hp h0 h e
    have := C29_relative_viscosity_laws (.mp p) s hp h0 h
    rw [e, Except.ok.injEq] at this
    exact this
  have kdl : ∀ {s : FlowState ℝ} {p k b : ℝ}, 0 < p → 0 < k → 0 ≤ s.crystal → s.crystal < p → (RelModel.kd p k).relative s = .ok b → b = kriegerDougherty p k s.crystal := by
    intro s p k b hp hk h0 h e
    have := C29_relative_viscosity_laws (.kd p k) s ⟨hp, hk⟩ h0 h
    rw [e, Except.ok.injEq] at this
    exact this
  refine ⟨fun hle => ?_, fun hbe hle => ?_, fun hbe hle => ?_, fun hbe hle => ?_⟩
  · refine rel_not_thicker hm hn (hb _) (fun s _ h1 h2 => ⟨(packing_room h0 hle h1 h2).1, (packing_room h0 hle h1 h2).2.1⟩) fun s b b' hs h1 h2 e e' => ?_
    have hlt := (packing_room h0 hle h1 h2).2.2
    rw [mpl (h0.trans_le hle) hs (hlt.trans_le hle) e, mpl h0 hs hlt e']
    obtain ⟨o1, o2⟩ := one h0 hs hlt
    have : s.crystal / φ ≤ s.crystal / φ' := div_le_div_of_nonneg_left hs h0 hle
    unfold maronPierceLaw
    exact Real.rpow_le_rpow_of_nonpos o1 (by linarith) (by norm_num)
  · refine rel_not_thicker hm hn (hb _) (fun s _ h1 h2 => ⟨h1, h2⟩) fun s b b' hs h1 h2 e e' => ?_
    have hlt := (packing_room h0 le_rfl h1 h2).2.2
    rw [kdl h0 hbe hs hlt e, kdl h0 (hbe.trans_le hle) hs hlt e']
    obtain ⟨o1, o2⟩ := one h0 hs hlt
    unfold kriegerDougherty
    apply Real.rpow_le_rpow_of_exponent_ge o1 o2
    nlinarith
  · refine rel_not_thicker hm hn (hb _) (fun s _ h1 h2 => ⟨h1, h2⟩) fun s b b' hs h1 h2 e e' => ?_
    have hlt := (packing_room h0 le_rfl h1 h2).2.2
    rw [kdl h0 hbe hs hlt e, mpl h0 hs hlt e']
    obtain ⟨o1, o2⟩ := one h0 hs hlt
    unfold kriegerDougherty maronPierceLaw
    apply Real.rpow_le_rpow_of_exponent_ge o1 o2
    linarith
  · refine rel_not_thicker hm hn (hb _) (fun s _ h1 h2 => ⟨h1, h2⟩) fun s b b' hs h1 h2 e e' => ?_
    have hlt := (packing_room h0 le_rfl h1 h2).2.2
    rw [mpl h0 hs hlt e, kdl h0 hbe hs hlt e']
    obtain ⟨o1, o2⟩ := one h0 hs hlt
    unfold kriegerDougherty maronPierceLaw
    apply Real.rpow_le_rpow_of_exponent_ge o1 o2
    linarith

/-- With the coefficients of the template, 3.27 and 0.641, the Krieger-Dougherty law is the thicker. -/
example (l : Lava ℝ) (hm : MeltAbove 1237.15 l.melt) (hbub : l.bub = .no) : NotThicker 1237.15 0 { l with rel := .mp 0.641 } { l with rel := .kd 0.641 3.27 } :=
  (C134_packing 0 1237.15 l hm (by rw [hbub]; exact fun _ _ _ _ _ h => by cases h) (by rw [hbub]; exact fun _ => trivial) 0.641 0.641 3.27 3.27 (by norm_num)).2.2.2 (by norm_num) (by norm_num)

end PyFlowGo
