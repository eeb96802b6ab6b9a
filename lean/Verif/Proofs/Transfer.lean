import Verif.Spec.SameNumbers
/-
  A simulation that ends without an exception gives the same result with every number type that computes the same values.
-/
set_option linter.unusedSectionVars false
namespace PyFlowGo
open Spec

/-- What the second computation keeps of a computation that succeeds. -/
def RelE {γ δ : Type} (S : γ → δ → Prop) (x : Except Err γ) (y : Except Err δ) : Prop :=
  ∀ a, x = .ok a → ∃ b, y = .ok b ∧ S a b

/-- The operations of the second number type follow those of the first. -/
class NumRel {α β : Type} [Add α] [Sub α] [Mul α] [Neg α] [OfScientific α] [PyNum α]
    [Add β] [Sub β] [Mul β] [Neg β] [OfScientific β] [PyNum β] (R : α → β → Prop) : Prop where
  add {a b c d} : R a c → R b d → R (a + b) (c + d)
  sub {a b c d} : R a c → R b d → R (a - b) (c - d)
  mul {a b c d} : R a c → R b d → R (a * b) (c * d)
  neg {a c} : R a c → R (-a) (-c)
  lit (m : Nat) (s : Bool) (e : Nat) : R (OfScientific.ofScientific m s e) (OfScientific.ofScientific m s e)
  le {a b c d} : R a c → R b d → leB a b = leB c d
  lt {a b c d} : R a c → R b d → ltB a b = ltB c d
  eq {a b c d} : R a c → R b d → eqB a b = eqB c d
  div {a b c d} : R a c → R b d → RelE R (PyNum.div a b) (PyNum.div c d)
  pow {a b c d} : R a c → R b d → RelE R (PyNum.pow a b) (PyNum.pow c d)
  mpow {a b c d} : R a c → R b d → RelE R (PyNum.mpow a b) (PyNum.mpow c d)
  npow {a c} (n : Nat) : R a c → R (PyNum.npow a n) (PyNum.npow c n)
  exp {a c} : R a c → R (PyNum.exp a) (PyNum.exp c)
  sin {a c} : R a c → R (PyNum.sin a) (PyNum.sin c)
  sqrt {a c} : R a c → R (PyNum.sqrt a) (PyNum.sqrt c)
  erf {a c} : R a c → R (PyNum.erf a) (PyNum.erf c)
  log10 {a c} : R a c → RelE R (PyNum.log10 a) (PyNum.log10 c)
  pi : R PyNum.pi PyNum.pi
  absv {a c} : R a c → R (PyNum.absv a) (PyNum.absv c)
  trunc {a c} : R a c → PyNum.truncInt a = PyNum.truncInt c
  ofInt (n : Int) : R (PyNum.ofInt n) (PyNum.ofInt n)

section
variable {γ δ γ' δ' : Type} {S : γ → δ → Prop} {T : γ' → δ' → Prop}

theorem RelE.ok {a : γ} {b : δ} (h : S a b) : RelE S (.ok a) (.ok b) := by
  rintro _ ⟨⟩; exact ⟨b, rfl, h⟩
theorem RelE.pure {a : γ} {b : δ} (h : S a b) : RelE S (Pure.pure a) (Pure.pure b) := RelE.ok h
theorem RelE.error {e : Err} {y : Except Err δ} : RelE S (.error e) y := by rintro _ ⟨⟩
theorem RelE.bind {x : Except Err γ} {y : Except Err δ} {f : γ → Except Err γ'} {g : δ → Except Err δ'}
    (h : RelE S x y) (hf : ∀ a b, S a b → RelE T (f a) (g b)) : RelE T (x >>= f) (y >>= g) := by
  intro c hc
  cases x with
  | error e => cases hc
  | ok a =>
    obtain ⟨b, rfl, hs⟩ := h a rfl
    exact hf a b hs c hc
theorem RelE.ite {p q : Bool} {x x' : Except Err γ} {y y' : Except Err δ} (h : p = q) (h1 : RelE S x y)
    (h2 : RelE S x' y') : RelE S (if p = true then x else x') (if q = true then y else y') := by
  subst h; cases p
  · simpa using h2
  · simpa using h1
theorem ite_same {p q : Bool} {x x' : γ} {y y' : δ} (h : p = q) (h1 : S x y)
    (h2 : S x' y') : S (if p = true then x else x') (if q = true then y else y') := by
  subst h; cases p
  · simpa using h2
  · simpa using h1
end

/-- Closes goals about one operation after the other. -/
syntax "same1" : tactic
set_option hygiene false in
macro_rules | `(tactic| same1) => `(tactic| first
  | assumption
  | exact NumRel.lit _ _ _
  | exact NumRel.pi
  | exact NumRel.ofInt _
  | apply NumRel.add | apply NumRel.sub | apply NumRel.mul | apply NumRel.neg
  | apply NumRel.npow | apply NumRel.exp | apply NumRel.sin | apply NumRel.sqrt | apply NumRel.erf | apply NumRel.absv
  | apply NumRel.le (R := R) | apply NumRel.lt (R := R) | apply NumRel.eq (R := R)
  | apply NumRel.div (R := R) | apply NumRel.pow (R := R) | apply NumRel.mpow (R := R) | apply NumRel.log10 (R := R)
  | apply RelE.ite | apply RelE.ok | apply RelE.pure | apply RelE.error)
syntax "same" : tactic
set_option hygiene false in
macro_rules | `(tactic| same) => `(tactic| repeat' (first | same1 | (refine RelE.bind (S := R) ?_ (fun a b hab => ?_))))

section
variable {α β : Type} [Add α] [Sub α] [Mul α] [Neg α] [OfScientific α] [PyNum α]
  [Add β] [Sub β] [Mul β] [Neg β] [OfScientific β] [PyNum β] {R : α → β → Prop} [NumRel R]

theorem pyMax_same {a b : α} {c d : β} (h : R a c) (h2 : R b d) : R (pyMax a b) (pyMax c d) := by
  unfold pyMax; exact ite_same (NumRel.lt h h2) h2 h
theorem pyMin_same {a b : α} {c d : β} (h : R a c) (h2 : R b d) : R (pyMin a b) (pyMin c d) := by
  unfold pyMin; exact ite_same (NumRel.lt h2 h) h2 h

theorem segment_same {p q : α × α} {p' q' : β × β} {x : α} {y : β} (hp : R p.1 p'.1 ∧ R p.2 p'.2)
    (hq : R q.1 q'.1 ∧ R q.2 q'.2) (hx : R x y) : RelE R (segment p q x) (segment p' q' y) := by
  unfold segment
  obtain ⟨h1, h2⟩ := hp; obtain ⟨h3, h4⟩ := hq
  same

theorem evalKnots_same {x : α} {y : β} (hx : R x y) {l : List (α × α)} {l' : List (β × β)}
    (h : List.Forall₂ (fun k k' => R k.1 k'.1 ∧ R k.2 k'.2) l l') : RelE R (evalKnots x l) (evalKnots y l') := by
  induction h with
  | nil => exact RelE.error
  | cons hp h ih =>
    cases h with
    | nil => exact RelE.error
    | cons hq h =>
      cases h with
      | nil => exact segment_same hp hq hx
      | cons hr h =>
        rw [evalKnots, evalKnots]
        exact RelE.ite (NumRel.le hx hq.1) (segment_same hp hq hx) ih

theorem spline_same {p : Spline α} {p' : Spline β} {x : α} {y : β} (h : SameSpline R p p') (hx : R x y) :
    RelE R (p.eval x) (p'.eval y) := evalKnots_same hx h

theorem slope_same {t : Terrain α} {t' : Terrain β} (h : SameTerrain R t t') {x : α} {y : β} (hx : R x y) :
    RelE R (t.slope x) (t'.slope y) := by
  unfold Terrain.slope
  have h2 := h.spline
  generalize t.spline = p at h2 ⊢
  generalize t'.spline = p' at h2 ⊢
  cases h2 with
  | none => exact RelE.ok h.slope
  | some hs => exact spline_same hs hx

theorem vesicles_same {m : VesicleModel α} {m' : VesicleModel β} (h : SameVesicles R m m') {s : FlowState α}
    {s' : FlowState β} (hs : SameState R s s') : R (m.fraction s) (m'.fraction s') := by
  obtain ⟨_, _, hpos, _, _⟩ := hs
  cases h with
  | constant h => exact h
  | bimodal h h2 h3 =>
    simp only [VesicleModel.fraction]
    exact ite_same (by same) h2 h3
  | «variable» h h2 =>
    simp only [VesicleModel.fraction]
    exact ite_same (by same) (by same) (by same)
  | variableBimodal h h2 h3 =>
    simp only [VesicleModel.fraction]
    exact ite_same (by same) (by same) (by same)
  | poly h h2 h3 =>
    simp only [VesicleModel.fraction]
    exact ite_same (by same) (by same) (by same)

theorem fraction_same {m : CrystModel α} {m' : CrystModel β} (h : SameCryst R m m') {x : α} {y : β} (hx : R x y) :
    RelE R (m.crystalFraction x) (m'.crystalFraction y) := by
  cases h with
  | basic h => exact RelE.ok h
  | bimodal h => exact RelE.ok h
  | bimodalFTemp h => exact RelE.ok h
  | melts h h2 h3 =>
    cases h3 with
    | none => exact RelE.ok h
    | some hs => exact spline_same hs hx

theorem rate_same {m : CrystModel α} {m' : CrystModel β} (h : SameCryst R m m') {s : FlowState α} {s' : FlowState β}
    (hs : SameState R s s') : RelE R (m.rate s) (m'.rate s') := by
  obtain ⟨_, htemp, hpos, _, _⟩ := hs
  have h0 := h
  cases h with
  | basic h h2 h3 h4 => simp only [CrystModel.rate]; same
  | bimodal h h2 h3 h4 h5 =>
    simp only [CrystModel.rate]
    exact RelE.ok (ite_same (by same) h3 h4)
  | bimodalFTemp h h2 h3 h4 h5 =>
    simp only [CrystModel.rate]
    exact RelE.ok (ite_same (by same) h3 h4)
  | melts h h2 h3 =>
    simp only [CrystModel.rate]
    refine RelE.bind (fraction_same h0 (by same)) (fun a b hab => ?_)
    refine RelE.bind (fraction_same h0 (by same)) (fun a b hab => ?_)
    same

theorem solid_same {m : CrystModel α} {m' : CrystModel β} (h : SameCryst R m m') :
    R m.solidTemperature m'.solidTemperature := by
  cases h <;> assumption

theorem hon_same {x : α} {y : β} (hx : R x y) : RelE R (honTemperature x) (honTemperature y) := by
  unfold honTemperature; same

theorem crust_same {m : CrustModel α} {m' : CrustModel β} (h : SameCrust R m m') {s : FlowState α} {s' : FlowState β}
    (hs : SameState R s s') : RelE R (m.temperature s) (m'.temperature s') := by
  obtain ⟨_, htemp, hpos, htime, _⟩ := hs
  cases h with
  | constant h => exact RelE.ok h
  | hon => exact hon_same htime
  | honBimodal h h2 =>
    simp only [CrustModel.temperature]
    exact RelE.ite (by same) (hon_same htime) (RelE.ok h2)
  | field h h2 =>
    cases h2 with
    | none => exact RelE.ok h
    | some hsp => exact spline_same hsp hpos
  | hr2001 => simp only [CrustModel.temperature]; same

theorem melt_same {m : MeltModel α} {m' : MeltModel β} (h : SameMelt R m m') {s : FlowState α} {s' : FlowState β}
    (hs : SameState R s s') : RelE R (m.viscosity s) (m'.viscosity s') := by
  obtain ⟨_, htemp, hpos, htime, _⟩ := hs
  cases h <;> simp only [MeltModel.viscosity] <;> same

theorem mueller_same {x : α} {y : β} (hx : R x y) : RelE R (muellerPhimax x) (muellerPhimax y) := by
  unfold muellerPhimax; same

theorem maron_same {x p : α} {y q : β} (hx : R x y) (hp : R p q) : RelE R (maronPierce x p) (maronPierce y q) := by
  unfold maronPierce; same

theorem costa_same {a b c d x : α} {a' b' c' d' y : β} (h1 : R a a') (h2 : R b b') (h3 : R c c') (h4 : R d d')
    (hx : R x y) : RelE R (costaLaw a b c d x) (costaLaw a' b' c' d' y) := by
  unfold costaLaw
  refine RelE.bind (S := R) (by same) (fun p p' hp => ?_)
  refine RelE.bind (S := R) (by same) (fun q q' hq => ?_)
  refine RelE.bind (S := R) (by same) (fun g g' hg => ?_)
  have hf : R ((1.0 - d) * PyNum.erf (pyMin 25.0 (p * q * (1.0 + g))))
      ((1.0 - d') * PyNum.erf (pyMin 25.0 (p' * q' * (1.0 + g')))) := by
    refine NumRel.mul (by same) (NumRel.erf (pyMin_same (by same) (by same)))
  dsimp only
  same

theorem bllIndex_same {a b c d : α} {a' b' c' d' : β} (h1 : R a a') (h2 : R b b') (h3 : R c c') (h4 : R d d') :
    R (bllIndex a b c d) (bllIndex a' b' c' d') := by
  unfold bllIndex
  have hc : R (if ltB 10.0 d then 10.0 else d) (if ltB 10.0 d' then 10.0 else d') := ite_same (by same) (by same) (by same)
  dsimp only
  exact pyMin_same (by same) (pyMax_same (by same) (by same))

theorem bll_same {a b c d e f : α} {v : VesicleModel α} {m : MeltModel α} {a' b' c' d' e' f' : β} {v' : VesicleModel β}
    {m' : MeltModel β} (h : R a a') (h2 : R b b') (h3 : R c c') (h4 : R d d') (h5 : R e e')
    (h6 : R f f') (hv : SameVesicles R v v') (hm : SameMelt R m m') {s : FlowState α} {s' : FlowState β}
    (hs : SameState R s s') : RelE R (bllRelative a b c d e f v m s) (bllRelative a' b' c' d' e' f' v' m' s') := by
  unfold bllRelative
  have hvf := vesicles_same hv hs
  have hmv := melt_same hm hs
  obtain ⟨hc, htemp, hpos, htime, hst⟩ := hs
  dsimp only
  have hst' : R (if leB s.strain 0.0 then 1e-12 else s.strain) (if leB s'.strain 0.0 then 1e-12 else s'.strain) :=
    ite_same (by same) (by same) (by same)
  refine RelE.bind hmv (fun mv mv' hmv' => ?_)
  refine RelE.bind (S := R) (by same) (fun rx rx' hrx => ?_)
  refine RelE.ite (by same) RelE.error ?_
  refine RelE.ite (by same) ?_ ?_
  · refine RelE.bind (S := R) (by same) (fun q q' hq => ?_)
    refine RelE.bind (S := R) (by same) (fun x x' hx => ?_)
    refine RelE.bind (S := R) (by same) (fun y y' hy => ?_)
    refine RelE.bind (S := R) (NumRel.pow hst' (NumRel.sub (bllIndex_same h6 hc hvf (by same)) (by same)))
      (fun z z' hz => ?_)
    same
  · same

theorem mader_same {a : α} {a' : β} (h : R a a') {s : FlowState α} {s' : FlowState β} (hs : SameState R s s') :
    RelE R (maderRelative a s) (maderRelative a' s') := by
  obtain ⟨hc, htemp, hpos, htime, hst⟩ := hs
  unfold maderRelative
  refine RelE.bind (mueller_same h) (fun p p' hp => ?_)
  refine RelE.bind (S := R) (by same) (fun q q' hq => ?_)
  refine RelE.ite (by same) (RelE.ite (by same) (RelE.ite (by same) RelE.error (by same)) (maron_same hc hp)) (maron_same hc hp)

theorem rel_same {m : RelModel α} {m' : RelModel β} (h : SameRel R m m') {s : FlowState α} {s' : FlowState β}
    (hs : SameState R s s') : RelE R (m.relative s) (m'.relative s') := by
  have hs0 := hs
  obtain ⟨hc, htemp, hpos, htime, hst⟩ := hs0
  cases h with
  | er => simp only [RelModel.relative]; same
  | kd h h2 => simp only [RelModel.relative]; same
  | mp h => exact maron_same hc h
  | mpMueller h => exact RelE.bind (mueller_same h) (fun p p' hp => maron_same hc hp)
  | mader h => exact mader_same h hs
  | bll h h2 h3 h4 h5 h6 hv hm => exact bll_same h h2 h3 h4 h5 h6 hv hm hs
  | ptp1 hv => have := vesicles_same hv hs; simp only [RelModel.relative]; same
  | ptp2 hv => have := vesicles_same hv hs; simp only [RelModel.relative]; same
  | ptp3 hv => have := vesicles_same hv hs; simp only [RelModel.relative]; same
  | costa1 h =>
    simp only [RelModel.relative]
    exact RelE.ite (by same) (costa_same (by same) (by same) (by same) (by same) hc)
      (RelE.ite (by same) (costa_same (by same) (by same) (by same) (by same) hc) RelE.error)
  | costa2 h =>
    simp only [RelModel.relative]
    exact RelE.ite (by same) (costa_same (by same) (by same) (by same) (by same) hc)
      (RelE.ite (by same) (costa_same (by same) (by same) (by same) (by same) hc) RelE.error)

theorem notCompatible_same {m : RelModel α} {m' : RelModel β} (h : SameRel R m m') {s : FlowState α} {s' : FlowState β}
    (hs : SameState R s s') : RelE Eq (m.notCompatible s) (m'.notCompatible s') := by
  have hs0 := hs
  obtain ⟨hc, htemp, hpos, htime, hst⟩ := hs0
  cases h with
  | er => simp only [RelModel.notCompatible]; same
  | kd h h2 => simp only [RelModel.notCompatible]; same
  | mp h => simp only [RelModel.notCompatible]; same
  | mpMueller h => exact RelE.bind (mueller_same h) (fun p p' hp => by same)
  | mader h => exact RelE.bind (mueller_same h) (fun p p' hp => by same)
  | bll h h2 h3 h4 h5 h6 hv hm => have := vesicles_same hv hs; simp only [RelModel.notCompatible]; same
  | ptp1 hv => have := vesicles_same hv hs; simp only [RelModel.notCompatible]; same
  | ptp2 hv => have := vesicles_same hv hs; simp only [RelModel.notCompatible]; same
  | ptp3 hv => have := vesicles_same hv hs; simp only [RelModel.notCompatible]; same
  | costa1 h => exact RelE.ok rfl
  | costa2 h => exact RelE.ok rfl

theorem bub_same {m : BubModel α} {m' : BubModel β} (h : SameBub R m m') {s : FlowState α} {s' : FlowState β}
    (hs : SameState R s s') : RelE R (m.relative s) (m'.relative s') := by
  have hst := hs.strain
  cases h with
  | no => simp only [BubModel.relative]; same
  | rigid hv => have := vesicles_same hv hs; simp only [BubModel.relative]; same
  | defo hv => have := vesicles_same hv hs; simp only [BubModel.relative]; same
  | mader h h2 hv hm hr =>
    have := vesicles_same hv hs
    simp only [BubModel.relative]
    refine RelE.bind (melt_same hm hs) (fun mv mv' hmv => ?_)
    refine RelE.bind (rel_same hr hs) (fun rc rc' hrc => ?_)
    same

theorem ryerson_same {x : α} {y : β} (hx : R x y) : RelE R (ryersonTerm x) (ryersonTerm y) := by
  unfold ryersonTerm; same
theorem dragoni_same {x t : α} {y u : β} (hx : R x y) (ht : R t u) : R (dragoniTerm x t) (dragoniTerm y u) := by
  unfold dragoniTerm; same

theorem yield_same {m : YieldModel α} {m' : YieldModel β} (h : SameYield R m m') {s : FlowState α} {s' : FlowState β}
    (hs : SameState R s s') : RelE R (m.strength s) (m'.strength s') := by
  have hs0 := hs
  obtain ⟨hc, htemp, hpos, htime, hst⟩ := hs0
  cases h with
  | basic h => exact RelE.bind (ryerson_same hc) (fun p p' hp => RelE.ok (NumRel.add (dragoni_same h htemp) hp))
  | dragoni h => exact RelE.bind (ryerson_same hc) (fun p p' hp => RelE.ok (NumRel.add (dragoni_same h htemp) hp))
  | dragoniAlone h => exact RelE.ok (dragoni_same h htemp)
  | ryerson => exact ryerson_same hc
  | bll hv => have := vesicles_same hv hs; simp only [YieldModel.strength]; same

variable {l : Lava α} {l' : Lava β} (hl : SameLava R l l')
include hl

theorem density_same {s : FlowState α} {s' : FlowState β} (hs : SameState R s s') : R (l.density s) (l'.density s') := by
  have := vesicles_same hl.ves hs
  have := hl.dre
  unfold Lava.density Lava.vesicleFraction; same

theorem molten_same {s : FlowState α} {s' : FlowState β} (hs : SameState R s s') :
    R (l.moltenTemperature s) (l'.moltenTemperature s') := NumRel.sub hs.temp hl.buffer

theorem viscosity_same {s : FlowState α} {s' : FlowState β} (hs : SameState R s s') :
    RelE R (l.bulkViscosity s) (l'.bulkViscosity s') := by
  unfold Lava.bulkViscosity
  refine RelE.bind (melt_same hl.melt hs) (fun a a' ha => ?_)
  refine RelE.bind (rel_same hl.rel hs) (fun b b' hb => ?_)
  refine RelE.bind (bub_same hl.bub hs) (fun c c' hc => ?_)
  same

theorem basal_same {t : Terrain α} {t' : Terrain β} (ht : SameTerrain R t t') {s : FlowState α} {s' : FlowState β}
    (hs : SameState R s s') : RelE R (l.basalStress t s) (l'.basalStress t' s') := by
  unfold Lava.basalStress
  have := density_same hl hs
  have := ht.depth
  have := ht.gravity
  refine RelE.bind (slope_same ht hs.pos) (fun a a' ha => ?_)
  same

theorem yieldNot_same {t : Terrain α} {t' : Terrain β} (ht : SameTerrain R t t') {s : FlowState α} {s' : FlowState β}
    (hs : SameState R s s') : RelE Eq (l.yieldNotCompatible t s) (l'.yieldNotCompatible t' s') := by
  unfold Lava.yieldNotCompatible
  refine RelE.bind (yield_same hl.yld hs) (fun a a' ha => ?_)
  refine RelE.bind (basal_same hl ht hs) (fun b b' hb => ?_)
  same

omit hl in
theorem formula_same {a b c d : α} {a' b' c' d' : β} (h1 : R a a') (h2 : R b b') (h3 : R c c') (h4 : R d d') :
    RelE R (velocityFormula a b c d) (velocityFormula a' b' c' d') := by
  unfold velocityFormula; same

theorem loop_same {s : FlowState α} {s' : FlowState β} (hs : SameState R s s') {a b c : α} {a' b' c' : β} (h1 : R a a')
    (h2 : R b b') (h3 : R c c') (n : Nat) : ∀ {x : α} {x' : β}, R x x' →
    RelE (fun p q => R p.1 q.1 ∧ R p.2 q.2) (velocityLoop l s a b c n x) (velocityLoop l' s' a' b' c' n x') := by
  induction n with
  | zero => intro x x' hx; exact RelE.error
  | succ n ih =>
    intro x x' hx
    rw [velocityLoop, velocityLoop]
    refine RelE.bind (viscosity_same hl hs) (fun u u' hu => ?_)
    refine RelE.bind (formula_same h1 h3 hu h2) (fun v v' hv => ?_)
    refine RelE.bind (S := R) (by same) (fun y y' hy => ?_)
    refine RelE.ite (NumRel.le (R := R) (by same) (pyMax_same (by same) (by same))) (RelE.ok ⟨hv, hy⟩) (ih hy)

theorem velocity_same {t : Terrain α} {t' : Terrain β} (ht : SameTerrain R t t') {s : FlowState α} {s' : FlowState β}
    (hs : SameState R s s') :
    RelE (fun p q => R p.1 q.1 ∧ R p.2 q.2) (l.meanVelocity t s) (l'.meanVelocity t' s') := by
  unfold Lava.meanVelocity
  refine RelE.bind (yield_same hl.yld hs) (fun a a' ha => ?_)
  refine RelE.bind (basal_same hl ht hs) (fun b b' hb => ?_)
  have := hs.strain
  exact loop_same hl hs ht.depth ha hb 50 (ite_same (NumRel.eq (R := R) (by same) (by same)) (by same) (by same))

end
end PyFlowGo
