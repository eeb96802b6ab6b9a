import Verif.Proofs.Velocity
/-
  None of the sub-models raises RuntimeError.
-/
namespace PyFlowGo

def NotRT {β : Type} (x : Except Err β) : Prop := x ≠ .error .runtimeError

namespace NotRT
variable {β γ : Type}

theorem bind {x : Except Err β} {f : β → Except Err γ} (hx : NotRT x) (hf : ∀ b, NotRT (f b)) :
    NotRT (x >>= f) := by
  cases x with
  | error e => intro h; apply hx; rw [error_bind] at h; injection h with h; rw [h]
  | ok b => exact hf b

theorem ok (b : β) : NotRT (.ok b : Except Err β) := by simp [NotRT]
theorem pure (b : β) : NotRT (Pure.pure b : Except Err β) := by simp [NotRT]
theorem error {e : Err} (h : e ≠ .runtimeError) : NotRT (.error e : Except Err β) := by
  simpa [NotRT] using h
theorem ite {c : Prop} [Decidable c] {x y : Except Err β} (hx : NotRT x) (hy : NotRT y) :
    NotRT (if c then x else y) := by split <;> assumption

theorem realPow {a b : Err} (ha : a ≠ .runtimeError) (hb : b ≠ .runtimeError) (x y : ℝ) :
    NotRT (PyFlowGo.realPow a b x y) := by
  classical
  unfold PyFlowGo.realPow; exact ite (error ha) (ite (error hb) (ok _))

end NotRT

/-- The partial operations of a number type do not raise RuntimeError. -/
class Quiet (α : Type) [PyNum α] : Prop where
  div : ∀ x y : α, NotRT (PyNum.div x y)
  pow : ∀ x y : α, NotRT (PyNum.pow x y)
  mpow : ∀ x y : α, NotRT (PyNum.mpow x y)
  log10 : ∀ x : α, NotRT (PyNum.log10 x)

instance : Quiet ℝ where
  div x y := by rw [div_real]; exact NotRT.ite (NotRT.error (by decide)) (NotRT.ok _)
  pow x y := NotRT.realPow (by decide) (by decide) x y
  mpow x y := NotRT.realPow (by decide) (by decide) x y
  log10 x := by rw [log10_real]; exact NotRT.ite (NotRT.error (by decide)) (NotRT.ok _)

/-- Discharges `NotRT` goals structurally. -/
macro "notRT" : tactic => `(tactic|
  with_reducible repeat' first
    | exact NotRT.ok _ | exact NotRT.pure _ | exact Quiet.div _ _ | exact Quiet.pow _ _
    | exact Quiet.mpow _ _ | exact Quiet.log10 _ | exact NotRT.error (by decide)
    | assumption
    | apply NotRT.ite
    | (apply NotRT.bind <;> try intro _)
    | dsimp only)

section
variable {α : Type} [Add α] [Sub α] [Mul α] [Neg α] [OfScientific α] [PyNum α] [Quiet α]

theorem melt_notRT (m : MeltModel α) (s : FlowState α) : NotRT (m.viscosity s) := by
  cases m <;> unfold MeltModel.viscosity <;> notRT

theorem muellerPhimax_notRT (rp : α) : NotRT (muellerPhimax rp) := by
  unfold muellerPhimax; notRT

theorem maronPierce_notRT (a b : α) : NotRT (maronPierce a b) := by
  unfold maronPierce; notRT

theorem costaLaw_notRT (a b c d e : α) : NotRT (costaLaw a b c d e) := by
  unfold costaLaw; notRT

theorem rel_notRT (m : RelModel α) (s : FlowState α) : NotRT (m.relative s) := by
  have h1 := muellerPhimax_notRT (α := α)
  have h2 := maronPierce_notRT (α := α)
  have h3 := costaLaw_notRT (α := α)
  cases m with
  | er => unfold RelModel.relative; notRT
  | kd => unfold RelModel.relative; notRT
  | mp => unfold RelModel.relative; exact h2 _ _
  | mpMueller => unfold RelModel.relative; exact NotRT.bind (h1 _) (fun _ => h2 _ _)
  | mader =>
    unfold RelModel.relative maderRelative
    refine NotRT.bind (h1 _) (fun pm => NotRT.bind (Quiet.div _ _) (fun q => ?_))
    have := h2 s.crystal pm
    notRT
  | bll a b c d e f ves melt =>
    unfold RelModel.relative bllRelative
    have := melt_notRT melt s
    notRT
  | ptp1 => unfold RelModel.relative; notRT
  | ptp2 => unfold RelModel.relative; notRT
  | ptp3 => unfold RelModel.relative; notRT
  | costa1 => unfold RelModel.relative; exact NotRT.ite (h3 _ _ _ _ _) (NotRT.ite (h3 _ _ _ _ _) (NotRT.error (by decide)))
  | costa2 => unfold RelModel.relative; exact NotRT.ite (h3 _ _ _ _ _) (NotRT.ite (h3 _ _ _ _ _) (NotRT.error (by decide)))

theorem bub_notRT (m : BubModel α) (s : FlowState α) : NotRT (m.relative s) := by
  cases m with
  | no => exact NotRT.ok _
  | rigid => unfold BubModel.relative; notRT
  | defo => unfold BubModel.relative; notRT
  | mader r t ves melt rel =>
    unfold BubModel.relative
    have := melt_notRT melt s
    have := rel_notRT rel s
    notRT

theorem bulk_notRT (l : Lava α) (s : FlowState α) : NotRT (l.bulkViscosity s) := by
  unfold Lava.bulkViscosity
  have := melt_notRT l.melt s
  have := rel_notRT l.rel s
  have := bub_notRT l.bub s
  notRT

theorem yield_notRT (m : YieldModel α) (s : FlowState α) : NotRT (m.strength s) := by
  have h : ∀ x : α, NotRT (ryersonTerm x) := fun x => by unfold ryersonTerm; notRT
  have := h s.crystal
  cases m <;> unfold YieldModel.strength <;> notRT

theorem evalKnots_notRT (x : α) (l : List (α × α)) : NotRT (evalKnots x l) := by
  have hs : ∀ p q : α × α, NotRT (segment p q x) := fun p q => by unfold segment; notRT
  fun_induction evalKnots x l with
  | case1 => exact NotRT.error (by decide)
  | case2 => exact NotRT.error (by decide)
  | case3 p q => exact hs p q
  | case4 => exact hs _ _
  | case5 => assumption

theorem slope_notRT (t : Terrain α) (x : α) : NotRT (t.slope x) := by
  unfold Terrain.slope Spline.eval
  split
  · exact evalKnots_notRT _ _
  · exact NotRT.ok _

theorem basal_notRT (l : Lava α) (t : Terrain α) (s : FlowState α) : NotRT (l.basalStress t s) := by
  unfold Lava.basalStress
  have := slope_notRT t s.pos
  notRT

theorem formula_notRT (d tb mu t0 : α) : NotRT (velocityFormula d tb mu t0) := by
  unfold velocityFormula; notRT

theorem pass_notRT (l : Lava α) (s : FlowState α) (d t0 tb : α) : NotRT (velocityPass l s d t0 tb) := by
  unfold velocityPass
  have := bulk_notRT l s
  have := formula_notRT (α := α)
  refine NotRT.bind (bulk_notRT _ _) fun mu => NotRT.bind (formula_notRT _ _ _ _) fun v => ?_
  notRT

end

theorem meanVelocity_notRT (l : Lava ℝ) (t : Terrain ℝ) (s : FlowState ℝ) : NotRT (l.meanVelocity t s) := by
  rw [meanVelocity_eq]
  exact NotRT.bind (yield_notRT _ _) fun t0 => NotRT.bind (basal_notRT _ _ _) fun tb => pass_notRT _ _ _ _ _

end PyFlowGo
