import Verif.Spec.RoundRun
import Verif.Props.Rounded
import Verif.Props.Stable
/-
  Rounding errors accumulated along a run.
-/
set_option linter.unusedSectionVars false
namespace PyFlowGo
open Spec Rounded

section
variable {α : Type} [Add α] [Sub α] [Mul α] [Neg α] [OfScientific α] [PyNum α] [LawfulBEq (Cell α)]

/-- A cell written at a position the flow has left is kept. -/
theorem acceptedRun_keeps {g : Integrator α} {k : Nat} {ws : Nat → World α} (h : AcceptedRun g k ws)
    (hne : ∀ i j, i < j → j < k → (ws i).st.pos ≠ (ws j).st.pos) {c : String} (hc : c ≠ "position") (i : Nat) :
    ∀ j, i < j → j ≤ k → cellAt (ws j).log (.num (ws i).st.pos) c = cellAt (ws (i + 1)).log (.num (ws i).st.pos) c := by
  intro j
  induction j with
  | zero => intro hi; omega
  | succ j ih =>
    intro hi hj
    by_cases e : i = j
    · rw [e]
    · obtain ⟨es, _, hp, hl⟩ := accepted_log (h j (by omega))
      rw [hl, cellAt_addAll es hp _ hc, if_neg, ih (by omega) (by omega)]
      intro e2
      injection e2 with e2
      exact hne i j (by omega) (by omega) e2

end

/-- One step of an accumulating error. -/
theorem round_next {rd : ℝ → ℝ} {u η K h e delta B s s' p p' G H : ℝ} (h0 : 0 ≤ u) (h1 : u ≤ 1 / 1000) (hη : 0 ≤ η) (hA : Accurate u η rd)
    (hh : 0 < h) (hs : s' = rd (s + rd (G * h))) (hp : p' = p + H * h) (he : |s - p| ≤ e) (hB1 : |s| ≤ B) (hB2 : |G * h| ≤ B)
    (hG : |G - H| ≤ K * e + delta) : |s' - p'| ≤ e + h * (K * e + (delta + (4 * u * B + 3 * η) / h)) := by
  have a1 := hA (G * h)
  have a2 := hA (s + rd (G * h))
  have hB : 0 ≤ B := (abs_nonneg _).trans hB1
  have b1 : |rd (G * h) - G * h| ≤ u * B + η := a1.trans (by have := mul_le_mul_of_nonneg_left hB2 h0; linarith)
  have b2 : |s + rd (G * h)| ≤ B + (B + (u * B + η)) := by
    calc |s + rd (G * h)| = |s + (G * h + (rd (G * h) - G * h))| := by ring_nf
      _ ≤ |s| + |G * h + (rd (G * h) - G * h)| := abs_add_le _ _
      _ ≤ |s| + (|G * h| + |rd (G * h) - G * h|) := by have := abs_add_le (G * h) (rd (G * h) - G * h); linarith
      _ ≤ _ := by linarith
  have b3 : |rd (s + rd (G * h)) - (s + rd (G * h))| ≤ u * (B + (B + (u * B + η))) + η :=
    a2.trans (by have := mul_le_mul_of_nonneg_left b2 h0; linarith)
  have b4 : |(G - H) * h| ≤ h * (K * e + delta) := by
    rw [abs_mul, abs_of_pos hh, mul_comm]; exact mul_le_mul_of_nonneg_left hG hh.le
  have b5 : |s' - p'| ≤ |rd (s + rd (G * h)) - (s + rd (G * h))| + (|s - p| + (|rd (G * h) - G * h| + |(G - H) * h|)) := by
    have e1 : s' - p' = (rd (s + rd (G * h)) - (s + rd (G * h))) + ((s - p) + ((rd (G * h) - G * h) + (G - H) * h)) := by
      rw [hs, hp]; ring
    rw [e1]
    have c1 := abs_add_le (rd (s + rd (G * h)) - (s + rd (G * h))) ((s - p) + ((rd (G * h) - G * h) + (G - H) * h))
    have c2 := abs_add_le (s - p) ((rd (G * h) - G * h) + (G - H) * h)
    have c3 := abs_add_le (rd (G * h) - G * h) ((G - H) * h)
    linarith
  have e2 : h * (K * e + (delta + (4 * u * B + 3 * η) / h)) = h * (K * e + delta) + (4 * u * B + 3 * η) := by field_simp; ring
  rw [e2]
  have u1 : u * (u * B) ≤ u * B := by
    have : u * B ≤ 1 * B := mul_le_mul_of_nonneg_right (by linarith) hB
    have := mul_le_mul_of_nonneg_left this h0
    linarith
  have u2 : u * η ≤ η := by
    have := mul_le_mul_of_nonneg_right (show u ≤ 1 by linarith) hη
    linarith
  nlinarith

end PyFlowGo
