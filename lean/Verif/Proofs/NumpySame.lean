import Verif.Proofs.TransferConfig
/-
  The numbers of the program (`Model/NumpyNum.lean`) follow those of the rounded arithmetic and of exact real arithmetic
  as long as these raise nothing.
-/
namespace PyFlowGo
open Spec Classical

variable {rd : ℝ → ℝ}

theorem same_power {z n : Err} {x y : Rounded rd} {a b : Scalar rd} (h : SameValue x a) (h2 : SameValue y b) :
    (∀ v, Rounded.powWith z n x y = .ok v →
      Scalar.powFault z n a.val b.val = none ∧ ∃ s, Ext.power rd a.val b.val = .fin s v.val) := by
  obtain ⟨s, hs⟩ := h
  obtain ⟨t, ht⟩ := h2
  intro v hv
  unfold Rounded.powWith at hv
  rw [hs, ht]
  unfold Scalar.powFault Ext.power
  dsimp only
  split at hv
  · cases hv
  · rename_i h1
    rw [if_neg h1, if_neg h1]
    split at hv
    · cases hv
    · rename_i h2
      rw [if_neg h2, if_neg h2]
      cases hv
      exact ⟨rfl, _, rfl⟩

instance : NumRel (SameValue (rd := rd)) where
  add := by
    rintro a b c d ⟨s, h⟩ ⟨t, h2⟩
    exact ⟨_, by show Ext.add rd c.val d.val = _; rw [h, h2]; rfl⟩
  sub := by
    rintro a b c d ⟨s, h⟩ ⟨t, h2⟩
    refine ⟨if a.val = 0 ∧ -b.val = 0 then s && !t else decide (a.val + -b.val < 0), ?_⟩
    show Ext.add rd c.val d.val.neg = _
    rw [h, h2]
    show Ext.fin _ (rd (a.val + -b.val)) = Ext.fin _ (rd (a.val - b.val))
    rw [sub_eq_add_neg]
  mul := by
    rintro a b c d ⟨s, h⟩ ⟨t, h2⟩
    exact ⟨_, by show Ext.mul rd c.val d.val = _; rw [h, h2]; rfl⟩
  neg := by
    rintro a c ⟨s, h⟩
    exact ⟨_, by show c.val.neg = _; rw [h]; rfl⟩
  lit m s e := ⟨_, rfl⟩
  le := by
    rintro a b c d ⟨s, h⟩ ⟨t, h2⟩
    show decide _ = c.val.le d.val
    rw [h, h2]; rfl
  lt := by
    rintro a b c d ⟨s, h⟩ ⟨t, h2⟩
    show decide _ = c.val.lt d.val
    rw [h, h2]; rfl
  eq := by
    rintro a b c d ⟨s, h⟩ ⟨t, h2⟩
    show decide _ = c.val.eq d.val
    rw [h, h2]; rfl
  div := by
    rintro a b c d ⟨s, h⟩ ⟨t, h2⟩ v hv
    change (if b.val = 0 then Except.error Err.zeroDiv else Except.ok (Rounded.near (a.val / b.val))) = _ at hv
    split at hv
    · cases hv
    · rename_i h0
      cases hv
      refine ⟨⟨c.np || d.np, .quot rd c.val d.val⟩, ?_, ?_⟩
      · show Scalar.quot c d = _
        unfold Scalar.quot
        rw [if_neg]
        rintro ⟨hz, _⟩
        rw [h2] at hz
        exact h0 hz
      · refine ⟨(Ext.fin s a.val).isNeg ^^ (Ext.fin t b.val).isNeg, ?_⟩
        dsimp only
        rw [h, h2]
        unfold Ext.quot
        dsimp only
        rw [if_neg h0]
        rfl
  pow := by
    intro a b c d h h2 v hv
    obtain ⟨hf, s, hp⟩ := same_power h h2 v hv
    refine ⟨⟨c.np || d.np, Ext.power rd c.val d.val⟩, ?_, ⟨s, hp⟩⟩
    show Scalar.power c d = _
    unfold Scalar.power
    rw [hf]
  mpow := by
    intro a b c d h h2 v hv
    obtain ⟨hf, s, hp⟩ := same_power h h2 v hv
    refine ⟨⟨false, Ext.power rd c.val d.val⟩, ?_, ⟨s, hp⟩⟩
    show Scalar.mathPow c d = _
    unfold Scalar.mathPow
    rw [hf]
  npow := by
    rintro a c n ⟨s, h⟩
    exact ⟨_, by show c.val.ipow rd n = _; rw [h]; rfl⟩
  exp := by
    rintro a c ⟨s, h⟩
    exact ⟨_, by show Scalar.expE c.val = _; rw [h]; rfl⟩
  sin := by
    rintro a c ⟨s, h⟩
    exact ⟨_, by show Scalar.sinE c.val = _; rw [h]; rfl⟩
  sqrt := by
    rintro a c ⟨s, h⟩
    exact ⟨_, by show Scalar.sqrtE c.val = _; rw [h]; rfl⟩
  erf := by
    rintro a c ⟨s, h⟩
    exact ⟨_, by show Scalar.erfE c.val = _; rw [h]; rfl⟩
  log10 := by
    rintro a c ⟨s, h⟩ v hv
    change (if a.val ≤ 0 then Except.error Err.mathDomain else Except.ok (Rounded.near (Real.logb 10 a.val))) = _ at hv
    split at hv
    · cases hv
    · rename_i h0
      cases hv
      refine ⟨⟨false, .fin (decide (Real.logb 10 a.val < 0)) (rd (Real.logb 10 a.val))⟩, ?_, ⟨_, rfl⟩⟩
      show (Scalar.log10E (rd := rd) c.val).map _ = _
      rw [h]
      unfold Scalar.log10E
      dsimp only
      rw [if_neg h0]
      rfl
  pi := ⟨_, rfl⟩
  absv := by
    rintro a c ⟨s, h⟩
    exact ⟨_, by show c.val.abs = _; rw [h]; rfl⟩
  trunc := by
    rintro a c ⟨s, h⟩
    show (if 0 ≤ a.val then ⌊a.val⌋ else ⌈a.val⌉) = _
    show _ = (match c.val with | .fin _ x => if 0 ≤ x then ⌊x⌋ else ⌈x⌉ | _ => 0)
    rw [h]
  ofInt n := ⟨_, rfl⟩

/-- Exact real arithmetic is the arithmetic that rounds nothing. -/
instance : NumRel SameReal where
  add := (inferInstance : NumRel (SameValue (rd := id))).add
  sub := (inferInstance : NumRel (SameValue (rd := id))).sub
  mul := (inferInstance : NumRel (SameValue (rd := id))).mul
  neg := (inferInstance : NumRel (SameValue (rd := id))).neg
  lit := (inferInstance : NumRel (SameValue (rd := id))).lit
  le := (inferInstance : NumRel (SameValue (rd := id))).le
  lt := (inferInstance : NumRel (SameValue (rd := id))).lt
  eq := (inferInstance : NumRel (SameValue (rd := id))).eq
  div := (inferInstance : NumRel (SameValue (rd := id))).div
  pow := (inferInstance : NumRel (SameValue (rd := id))).pow
  mpow := (inferInstance : NumRel (SameValue (rd := id))).mpow
  npow := (inferInstance : NumRel (SameValue (rd := id))).npow
  exp := (inferInstance : NumRel (SameValue (rd := id))).exp
  sin := (inferInstance : NumRel (SameValue (rd := id))).sin
  sqrt := (inferInstance : NumRel (SameValue (rd := id))).sqrt
  erf := (inferInstance : NumRel (SameValue (rd := id))).erf
  log10 := (inferInstance : NumRel (SameValue (rd := id))).log10
  pi := (inferInstance : NumRel (SameValue (rd := id))).pi
  absv := (inferInstance : NumRel (SameValue (rd := id))).absv
  trunc := (inferInstance : NumRel (SameValue (rd := id))).trunc
  ofInt := (inferInstance : NumRel (SameValue (rd := id))).ofInt

end PyFlowGo
