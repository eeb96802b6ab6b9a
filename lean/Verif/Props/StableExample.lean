import Verif.Props.Stable
import Verif.Props.ConvergeExample
/-
  C125 at work: lava cooled by rain, with two rain intensities.
-/
set_option linter.unusedSectionVars false
namespace PyFlowGo
open Spec Set

theorem fine_vent (eps dx len : ℝ) : VentRate (fineG eps dx) (longWorld 0 len) 1 := by
  intro v x hv
  obtain ⟨u, hu, _, hu1⟩ := long_velocity (longTerrain_channel len) (longWorld 0 len).st le_rfl (by show (0:ℝ) ≤ 1 / 100; norm_num)
    ⟨by show 1000 - 1000 * (0:ℝ) ≤ 1000; norm_num, by show (1000:ℝ) ≤ 1000; norm_num⟩
  have hv : (exLava 1 (.kd 1 0) .ryerson).meanVelocity (longTerrain len) (longWorld 0 len).st = .ok (v, x) := hv
  rw [hu, Except.ok.injEq, Prod.mk.injEq] at hv
  rw [← hv.1, hu1 rfl]
  show (1:ℝ) = if (0:ℕ) = 0 then 1 * 1 * 1 else _
  norm_num

/-- **C125** at work: the same lava in the same channel under two rain intensities (`eps` and `eps'`, both at most `top`). For every number of steps both runs complete, with
    a row for every step, and temperatures and crystal fractions in the rows differ by at most a constant times `|eps - eps'|`; the constant does not depend
    on the number of steps. -/
theorem C125_rain (top len : ℝ) (htop : 0 < top) (hlen : 0 < len) (hs : 3 * top * len ≤ 1 / 100) :
    ∃ C, ∀ eps eps' : ℝ, 0 < eps → eps ≤ top → 0 < eps' → eps' ≤ top → ∀ n : ℕ, 1 ≤ n →
      ∃ a b, runLoop (fineG eps (len / n)) n (longWorld 0 len) = some (.ok (), a) ∧ runLoop (fineG eps' (len / n)) n (longWorld 0 len) = some (.ok (), b) ∧
        a.log.length = n ∧ b.log.length = n ∧
        ∀ c, c = "core_temperature" ∨ c = "crystal_fraction" → ∀ x y y', x ≤ len → BothShow a.log b.log c x y y' → |y - y'| ≤ C * |eps - eps'| := by
  obtain ⟨L, hL, hlip⟩ := fineV_lipschitz
  set K : ℝ := (1000 * top + 1) * L with hKdef
  have hK : 0 < K := by positivity
  refine ⟨3000 / K * (Real.exp (K * len) - 1), fun eps eps' he het he' het' n hn => ?_⟩
  have hn0 : (0 : ℝ) < n := by exact_mod_cast hn
  have hdx : 0 < len / n := by positivity
  have hnd : (n : ℝ) * (len / n) = len := by field_simp
  have small : ∀ e, 0 < e → e ≤ top → 3 * e * (n * (len / n)) ≤ 1 / 100 := fun e h0 h1 => by
    rw [hnd]; exact (mul_le_mul_of_nonneg_right (by linarith) hlen.le).trans hs
  obtain ⟨a, ra, la, _, ia⟩ := fine_rows eps (len / n) he hdx n hn (small eps he het)
  obtain ⟨b, rb, lb, _, ib⟩ := fine_rows eps' (len / n) he' hdx n hn (small eps' he' het')
  rw [hnd] at ra rb
  refine ⟨a, b, ra, rb, la, lb, fun c hc x y y' hx hxy => ?_⟩
  have hT := longTerrain_channel len
  set D : ℝ := 3000 * |eps - eps'| with hD
  have hD0 : 0 ≤ D := by positivity
  have hnear : CloseEquations ⟨fineG eps (len / n), longTerrain len, none, 1⟩ ⟨fineG eps' (len / n), longTerrain len, none, 1⟩ FineRegion K D := by
    intro s s' G G' hs hs' _ hG hG'
    rw [(fine_equations hT eps _ s hs G).mp hG, (fine_equations hT eps' _ s' hs' G').mp hG']
    have h := hlip s.crystal hs.2 s'.crystal hs'.2
    have h3 := fineV_ge hs'.2.1 hs'.2.2
    have hv' : 0 < fineV s'.crystal := by linarith
    have hi : |1 / fineV s'.crystal| ≤ 3 := by
      rw [abs_of_pos (by positivity), div_le_iff₀ hv']; linarith
    have hm : |s.crystal - s'.crystal| ≤ max |s.temp - s'.temp| |s.crystal - s'.crystal| := le_max_right _ _
    set m := max |s.temp - s'.temp| |s.crystal - s'.crystal|
    have hm0 : 0 ≤ m := (abs_nonneg _).trans hm
    have hLm : L * |s.crystal - s'.crystal| ≤ L * m := mul_le_mul_of_nonneg_left hm hL.le
    have hcr : |eps / fineV s.crystal - eps' / fineV s'.crystal| ≤ top * (L * m) + 3 * |eps - eps'| := by
      have e : eps / fineV s.crystal - eps' / fineV s'.crystal = eps * (1 / fineV s.crystal - 1 / fineV s'.crystal) + (eps - eps') * (1 / fineV s'.crystal) := by ring
      rw [e]
      refine (abs_add_le _ _).trans (add_le_add ?_ ?_)
      · rw [abs_mul, abs_of_pos he]
        exact mul_le_mul het (h.trans hLm) (abs_nonneg _) htop.le
      · rw [abs_mul, mul_comm]
        exact mul_le_mul_of_nonneg_right hi (abs_nonneg _)
    have hLm0 : 0 ≤ L * m := by positivity
    have ha0 := abs_nonneg (eps - eps')
    have htl : 0 ≤ top * (L * m) := by positivity
    have eK : K * m = 1000 * (top * (L * m)) + L * m := by rw [hKdef]; ring
    refine ⟨?_, ?_, ?_⟩
    · have e : -(1000 * (eps / fineV s.crystal)) - -(1000 * (eps' / fineV s'.crystal)) = -1000 * (eps / fineV s.crystal - eps' / fineV s'.crystal) := by ring
      show |_ - _| ≤ _
      rw [e, abs_mul, eK, hD]
      norm_num
      linarith
    · show |_ - _| ≤ _
      rw [eK, hD]; linarith
    · show |_ - _| ≤ _
      rw [eK, hD]
      have := h.trans hLm
      linarith
  have := C125_small_change (fineG eps (len / n)) (fineG eps' (len / n)) hdx rfl n n (longWorld 0 len) (longWorld 0 len) a b rfl rfl ra rb (fun _ _ => rfl) (fun _ _ => rfl)
    1 1 (fine_vent _ _ _) (fine_vent _ _ _) FineRegion ia ib K D 0 hK hD0 hnear rfl (by simp) (by simp) x y y' c hc hxy
  have hp : (longWorld 0 len).st.pos = 0 := rfl
  rw [hp, sub_zero, zero_mul, zero_add] at this
  refine this.trans ?_
  have h1 : Real.exp (K * x) ≤ Real.exp (K * len) := Real.exp_le_exp.mpr (mul_le_mul_of_nonneg_left hx hK.le)
  have e : 3000 / K * (Real.exp (K * len) - 1) * |eps - eps'| = D / K * (Real.exp (K * len) - 1) := by rw [hD]; ring
  rw [e]
  exact mul_le_mul_of_nonneg_left (by linarith) (by positivity)

end PyFlowGo
