import Verif.Proofs.FluxLemmas
import Verif.Proofs.FluxValue
import Verif.Props.Budget
/-
  With a strain-independent rheology the strain rate stays at 3 v / depth once the velocity has been computed.
-/
set_option linter.unusedSectionVars false
namespace PyFlowGo
open Spec

/-- `m` preserves a property of the world, whether it raises or not. -/
def Preserves {α β : Type} (P : World α → Prop) (m : PyM (World α) β) : Prop := ∀ w r w', P w → m w = (r, w') → P w'

namespace Preserves
variable {α β γ : Type} {P : World α → Prop}

theorem of_unchanged {m : PyM (World α) β} (h : ∀ w, (m w).2 = w) : Preserves P m := by
  intro w r w' hP e
  have : w' = w := by have := h w; rw [e] at this; exact this
  rw [this]; exact hP

theorem pure (b : β) : Preserves P (Pure.pure b : PyM (World α) β) := of_unchanged fun _ => rfl
theorem get : Preserves P (PyM.get : PyM (World α) (World α)) := of_unchanged fun _ => rfl
theorem lift (x : Except Err β) : Preserves P (PyM.lift x : PyM (World α) β) := of_unchanged fun _ => rfl

theorem bind {m : PyM (World α) β} {f : β → PyM (World α) γ} (hm : Preserves P m) (hf : ∀ b, Preserves P (f b)) :
    Preserves P (m >>= f) := by
  intro w r w' hP e
  rw [PyM.bind_apply] at e
  cases h : m w with
  | mk r1 w1 =>
    rw [h] at e
    have h1 := hm w r1 w1 hP h
    cases r1 with
    | error err =>
      simp only [Prod.mk.injEq] at e
      rw [← e.2]; exact h1
    | ok b => exact hf b w1 r w' h1 e

variable [Add α] [Sub α] [Mul α] [Neg α] [OfScientific α] [PyNum α]

/-- `P` does not look at the log. -/
def LogBlind (P : World α → Prop) : Prop := ∀ w (L : Log (Cell α)), P w → P { w with log := L }

theorem logNum (hP : LogBlind P) (n : String) (v : α) : Preserves P (PyFlowGo.logNum n v) := by
  intro w r w' h e
  simp only [PyFlowGo.logNum, PyFlowGo.logCell, PyM.modify_apply, Prod.mk.injEq] at e
  rw [← e.2]; exact hP _ _ h

theorem crust (m : Models α) : Preserves P (crustTemperature m) := of_unchanged fun _ => rfl
theorem molten (m : Models α) : Preserves P (moltenTemperature m) := of_unchanged fun _ => rfl

theorem cover (m : Models α) (hv : Preserves P (meanVelocityM m.lava)) : Preserves P (effectiveCover m) := by
  unfold effectiveCover
  exact bind get fun _ => bind hv fun _ => pure _

theorem effRad (hP : LogBlind P) (m : Models α) (hv : Preserves P (meanVelocityM m.lava)) :
    Preserves P (effectiveRadiationTemperature m) := by
  unfold effectiveRadiationTemperature
  exact bind (cover m hv) fun _ => bind (crust m) fun _ => bind (molten m) fun _ => bind (lift _) fun _ =>
    bind (logNum hP _ _) fun _ => pure _

theorem spectral (hP : LogBlind P) (m : Models α) (hv : Preserves P (meanVelocityM m.lava)) (lp : α) (eps : α → α → α × α)
    (width : α) : Preserves P (spectralRadiance m lp eps width) := by
  unfold spectralRadiance
  exact bind (cover m hv) fun _ => bind (crust m) fun _ => bind (molten m) fun _ => bind (lift _) fun _ => logNum hP _ _

theorem radiation (hP : LogBlind P) (m : Models α) (hv : Preserves P (meanVelocityM m.lava)) (sigma : α)
    (e : PyM (World α) α) (he : Preserves P e) (lp : α) (eps : α → α → α × α) (width : α) :
    Preserves P (radiationFlux m sigma e lp eps width) := by
  unfold radiationFlux
  exact bind (effRad hP m hv) fun _ => bind he fun _ => bind (logNum hP _ _) fun _ =>
    bind (spectral hP m hv _ _ _) fun _ => pure _

theorem flux (hP : LogBlind P) (m : Models α) (hv : Preserves P (meanVelocityM m.lava)) (width depth : α) (f : Flux α) :
    Preserves P (f.compute m width depth) := by
  cases f with
  | radBasic s e => exact radiation hP m hv _ _ (pure _) _ _ _
  | radTwoEmi s e1 e2 => exact radiation hP m hv _ _ (bind (cover m hv) fun _ => pure _) _ _ _
  | radCont s =>
    exact radiation hP m hv _ _ (bind (cover m hv) fun _ => bind (crust m) fun _ => bind (molten m) fun _ => pure _) _ _ _
  | radLin s => exact radiation hP m hv _ _ (bind (effRad hP m hv) fun _ => pure _) _ _ _
  | conduction b p => exact of_unchanged fun _ => rfl
  | convection =>
    exact bind (crust m) fun _ => bind (cover m hv) fun _ => bind (molten m) fun _ => bind (lift _) fun _ =>
      bind (logNum hP _ _) fun _ => bind (logNum hP _ _) fun _ => bind (logNum hP _ _) fun _ => pure _
  | rain a b c => exact pure _
  | viscous => exact bind get fun _ => bind (lift _) fun _ => bind hv fun _ => bind (lift _) fun _ => pure _
  | snyder =>
    exact bind (crust m) fun _ => bind (cover m hv) fun _ => bind (molten m) fun _ => bind (logNum hP _ _) fun _ =>
      bind (lift _) fun _ => bind (logNum hP _ _) fun _ => bind (logNum hP _ _) fun _ => bind (logNum hP _ _) fun _ =>
      bind (logNum hP _ _) fun _ => pure _

theorem heatBudgetLoop (hP : LogBlind P) (m : Models α) (hv : Preserves P (meanVelocityM m.lava)) (width depth : α)
    (fs : List (Flux α)) (acc : α) : Preserves P (PyFlowGo.heatBudgetLoop m width depth fs acc) := by
  induction fs generalizing acc with
  | nil => exact pure _
  | cons f rest ih =>
    exact bind (flux hP m hv _ _ f) fun _ => bind (flux hP m hv _ _ f) fun _ => bind (logNum hP _ _) fun _ => ih _

theorem heatBudget (hP : LogBlind P) (m : Models α) (hv : Preserves P (meanVelocityM m.lava)) (width depth : α) :
    Preserves P (PyFlowGo.heatBudget m width depth) := by
  unfold PyFlowGo.heatBudget
  exact bind (heatBudgetLoop hP m hv _ _ _ _) fun _ => bind (logNum hP _ _) fun _ => pure _

end Preserves

/-- The terrain and the state, with the strain rate of the computed velocity. -/
def Settled (T : Terrain ℝ) (s : FlowState ℝ) (x : ℝ) (w : World ℝ) : Prop := w.terrain = T ∧ w.st = { s with strain := x }

theorem settled_blind (T : Terrain ℝ) (s : FlowState ℝ) (x : ℝ) : Preserves.LogBlind (Settled T s x) := fun _ _ h => h

theorem settled_velocity {l : Lava ℝ} (hl : StrainIndependent l) {T : Terrain ℝ} {s : FlowState ℝ} {v x : ℝ}
    (hv : l.meanVelocity T s = .ok (v, x)) : Preserves (Settled T s x) (meanVelocityM l) := by
  intro w r w' ⟨h1, h2⟩ e
  unfold meanVelocityM at e
  rw [h1, h2, meanVelocity_strain l hl, hv] at e
  simp only [Prod.mk.injEq] at e
  rw [← e.2]
  exact ⟨rfl, rfl⟩

end PyFlowGo
