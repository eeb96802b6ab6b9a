import Verif.Spec.RoundSpec
import Verif.Spec.Stable
import Verif.Spec.RunSpec
/-
  A run in rounded arithmetic seen from the exact flow equations.
-/
namespace PyFlowGo.Spec
open Rounded

/-- The numbers of a state in rounded arithmetic. -/
def exactState {rd : ℝ → ℝ} (s : FlowState (Rounded rd)) : FlowState ℝ :=
  { crystal := val s.crystal, temp := val s.temp, pos := val s.pos, time := val s.time, strain := val s.strain }

/-- The gradients `dtemp_dx` and `dphi_dx` in the row which the step from `w` to `w'` wrote are those of the exact flow equations
    of the set-up `S`, taken at the numbers of the state of `w`, up to `delta`. -/
def GradientsWithin {rd : ℝ → ℝ} (S : Setup) (w w' : World (Rounded rd)) (delta : ℝ) : Prop :=
  ∃ a b G, loggedNum w'.log w.st.pos "dtemp_dx" = some a ∧ loggedNum w'.log w.st.pos "dphi_dx" = some b ∧
    FlowEquations S.g S.terrain S.fluxRate S.rate (exactState w.st) G ∧ |val a - G.temp| ≤ delta ∧ |val b - G.crystal| ≤ delta

/-- Temperature, crystal fraction and their changes in the step from `w` to `w'` are at most `B` in size. -/
def NumbersWithin {rd : ℝ → ℝ} (g : Integrator (Rounded rd)) (w w' : World (Rounded rd)) (B : ℝ) : Prop :=
  |val w.st.temp| ≤ B ∧ |val w.st.crystal| ≤ B ∧
    (∀ a, loggedNum w'.log w.st.pos "dtemp_dx" = some a → |val a * val g.dx| ≤ B) ∧
    (∀ b, loggedNum w'.log w.st.pos "dphi_dx" = some b → |val b * val g.dx| ≤ B)

end PyFlowGo.Spec
