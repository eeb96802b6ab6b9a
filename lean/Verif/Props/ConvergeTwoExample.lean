import Verif.Props.ConvergeTwo
import Verif.Props.StableExample
/-
  C99: two step sizes, a concrete case.
-/
set_option linter.unusedSectionVars false
namespace PyFlowGo
open Spec Set

/-- **C99** with two step sizes: lava cooled by rain, with `n` and with `n'` steps over the same channel. What the two tables show at the same distance differs by at most
    a constant times the sum of the step sizes; the constant depends on the flow only. -/
example (eps len : ℝ) (heps : 0 < eps) (hlen : 0 < len) (hs : 3 * eps * len ≤ 1 / 100) :
    ∃ C, ∀ n n' : ℕ, 1 ≤ n → 1 ≤ n' → ∃ a c, runLoop (fineG eps (len / n)) n (longWorld 0 len) = some (.ok (), a) ∧
      runLoop (fineG eps (len / n')) n' (longWorld 0 len) = some (.ok (), c) ∧ a.log.length = n ∧ c.log.length = n' ∧
      ∀ col, col = "core_temperature" ∨ col = "crystal_fraction" → ∀ x y y', x ≤ len → BothShow a.log c.log col x y y' →
        |y - y'| ≤ C * (len / n + len / n') := by
  obtain ⟨P, K, M, hK, hM, _, h0, hreg, hall⟩ := fine_hypotheses eps len heps hlen hs
  refine ⟨M / (2 * K) * (Real.exp (K * len) - 1), fun n n' hn hn' => ?_⟩
  have pos : ∀ m : ℕ, 1 ≤ m → 0 < len / m ∧ (m : ℝ) * (len / m) = len := fun m hm => by
    have : (0 : ℝ) < m := by exact_mod_cast hm
    exact ⟨by positivity, by field_simp⟩
  obtain ⟨p1, q1⟩ := pos n hn
  obtain ⟨p2, q2⟩ := pos n' hn'
  obtain ⟨a, ra, la, _, ia⟩ := fine_rows eps (len / n) heps p1 n hn (by rw [q1]; exact hs)
  obtain ⟨c, rc, lc, _, ic⟩ := fine_rows eps (len / n') heps p2 n' hn' (by rw [q2]; exact hs)
  rw [q1] at ra
  rw [q2] at rc
  refine ⟨a, c, ra, rc, la, lc, fun col hcol x y y' hx hxy => ?_⟩
  have := C99_two_steps (fineG eps (len / n)) p1 (len / n') p2 n n' (longWorld 0 len) a c rfl ra rc (fun _ _ => rfl) 1 (fine_vent _ _ _) len P (hall _).1 h0
    FineRegion K M hK hM hreg ia ic (hall _).2.1 (hall _).2.2 col hcol x y y' hx hxy
  refine this.trans ?_
  show M * (len / n + len / n') / (2 * K) * (Real.exp (K * (x - 0)) - 1) ≤ _
  rw [sub_zero]
  have h1 : Real.exp (K * x) ≤ Real.exp (K * len) := Real.exp_le_exp.mpr (mul_le_mul_of_nonneg_left hx hK.le)
  have e : M / (2 * K) * (Real.exp (K * len) - 1) * (len / n + len / n') = M * (len / n + len / n') / (2 * K) * (Real.exp (K * len) - 1) := by ring
  rw [e]
  exact mul_le_mul_of_nonneg_left (by linarith) (by positivity)

end PyFlowGo
