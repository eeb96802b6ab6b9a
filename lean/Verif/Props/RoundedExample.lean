import Verif.Proofs.RoundFlow
import Verif.Props.RoundedLaws
/-
  The hypotheses of C83-C86 are met by doubles and by a concrete flow computed in doubles.
-/
set_option linter.unusedSectionVars false
namespace PyFlowGo
open Spec Rounded

/-- The largest finite double. -/
noncomputable def maxDouble : ℝ := (2 ^ 53 - 1) * (2 : ℝ) ^ (971 : ℤ)

theorem maxDouble_representable : Representable (binary 53 (-1074)) maxDouble := by
  have := binary_dyadic 53 (-1074) (2 ^ 53 - 1) 971 (by norm_num) (by norm_num)
  unfold maxDouble
  have e : (((2 ^ 53 - 1 : ℤ)) : ℝ) = 2 ^ 53 - 1 := by norm_num
  rwa [e] at this

/-- Doubles, with saturation for overflow, are an arithmetic as assumed ... -/
example : Rounding (saturated 53 (-1074) maxDouble) :=
  saturated_rounding 53 (-1074) (by norm_num) _ (mul_nonneg (by norm_num) (by positivity)) maxDouble_representable

/-- ... and C83 applies to them: every run ends. -/
example (g : Integrator (Rounded (saturated 53 (-1074) maxDouble))) (w : World (Rounded (saturated 53 (-1074) maxDouble))) :
    ∃ n r w', runLoop g n w = some (r, w') :=
  ⟨_, C83_every_run_ends (saturated_finite 53 (-1074) maxDouble) g w⟩

/-- The rounding of doubles, without overflow. -/
noncomputable abbrev dbl : ℝ → ℝ := binary 53 (-1074)

/-- C84: a thousand accepted steps in doubles. -/
example : ∃ ws, AcceptedRun (rfG dbl (rfYield dbl) false) 1000 ws ∧
    val (ws 0).st.crystal < val (ws 1000).st.crystal ∧ val (ws 0).st.pos ≤ val (ws 1000).st.pos := by
  obtain ⟨ws, h0, h1, _, _⟩ := rf_run doubles_decent false 0 (by norm_num) 1000 le_rfl
  have := C84_monotone doubles_decent.rounding (rfG dbl (rfYield dbl) false) (by show (0 : ℝ) ≤ 1; norm_num) 1000 ws h1
    (by rw [h0]; exact doubles_decent.zero) (by rw [h0]; exact doubles_decent.zero) 0 1000 (by norm_num) le_rfl
  exact ⟨ws, h1, this.1, this.2.1⟩

theorem rf_rate {rd : ℝ → ℝ} (mass : Bool) (s : FlowState (Rounded rd)) :
    (rfG rd (rfYield rd) mass).models.cryst.rate s = .ok (exactly 1) := by
  show Except.ok (if _ then _ else _) = _
  split <;> rfl

/-- C84: the second step of that run cools the core, and its logged heat budget is positive. -/
example : ∃ w w', AcceptedStep (rfG dbl (rfYield dbl) false) w w' ∧ w.iteration = 1 ∧ val w'.st.temp ≤ val w.st.temp ∧
    ∃ q, loggedNum w'.log w.st.pos "heat_budget" = some q ∧ 0 < val q := by
  obtain ⟨ws, h0, h1, h2, _⟩ := rf_run doubles_decent false 0 (by norm_num) 2 (by norm_num)
  have R := doubles_decent.rounding
  obtain ⟨_, a, b, _, _, _⟩ := round_step_advance R (h1 0 (by norm_num))
  refine ⟨ws 1, ws 2, h1 1 (by norm_num), (h2 1 (by norm_num)).iter, ?_, ?_⟩
  · exact (C84_no_warming R _ (by show (0 : ℝ) ≤ 1; norm_num) _ _ (h1 1 (by norm_num)) a b (exactly 1) (rf_rate _ _)
      (by norm_num)).1
  · refine C84_heat_positive R _ (by show (0 : ℝ) ≤ 1; norm_num) _ _ (h1 1 (by norm_num)) a b (exactly 1) (rf_rate _ _)
      (by norm_num) ?_ ?_ ?_
    · rw [(h2 2 le_rfl).rate (by norm_num)]
      exact le_trans (by norm_num) (rf_v doubles_decent).1
    · show 0 ≤ val ((rfLava dbl (rfYield dbl)).density _)
      rw [rf_density doubles_decent]; norm_num
    · show (0 : ℝ) ≤ 2 ^ 20; norm_num

/-- C85: doubles without under- and overflow have the accuracy assumed, with u = 2^-53 ... -/
example : Accurate ((2 : ℝ) ^ (-(53 : ℕ) : ℤ)) 0 (unbounded 53) := unbounded_accurate 53

/-- ... and the first and the last of a thousand rows agree up to four roundings ... -/
example : ∃ ws, AcceptedRun (rfG (unbounded 53) (rfYield (unbounded 53)) false) 1000 ws ∧
    ∃ a b c a' b' c', loggedNum (ws 1).log (ws 0).st.pos "channel_width" = some a ∧
      loggedNum (ws 1).log (ws 0).st.pos "mean_velocity" = some b ∧
      loggedNum (ws 1).log (ws 0).st.pos "channel_depth" = some c ∧
      loggedNum (ws 1000).log (ws 999).st.pos "channel_width" = some a' ∧
      loggedNum (ws 1000).log (ws 999).st.pos "mean_velocity" = some b' ∧
      loggedNum (ws 1000).log (ws 999).st.pos "channel_depth" = some c' ∧
      Close ((2 : ℝ) ^ (-(53 : ℕ) : ℤ)) 4 (val a * val b * val c) (val a' * val b' * val c') := by
  obtain ⟨ws, h0, h1, _, _⟩ := rf_run unbounded_decent false 0 (by norm_num) 1000 le_rfl
  exact ⟨ws, h1, C85_rows_agree (by positivity) (zpow_lt_one_of_neg₀ (by norm_num) (by norm_num)) (unbounded_accurate 53) _ rfl 1000 ws h1
    0 999 (by norm_num) (by norm_num)⟩

/-- ... with mass conservation on as well. -/
example : ∃ w w', AcceptedStep (rfG (unbounded 53) (rfYield (unbounded 53)) true) w w' ∧
    ∃ flux width v depth rho, w'.fluxRate = some flux ∧
      loggedNum w'.log w.st.pos "channel_width" = some width ∧
      loggedNum w'.log w.st.pos "mean_velocity" = some v ∧ loggedNum w'.log w.st.pos "channel_depth" = some depth ∧
      loggedNum w'.log w.st.pos "density" = some rho ∧
      Close ((2 : ℝ) ^ (-(53 : ℕ) : ℤ)) 3 (val flux) (val width * val v * val depth * val rho) := by
  obtain ⟨ws, h0, h1, _, _⟩ := rf_run unbounded_decent true 0 (by norm_num) 1 (by norm_num)
  obtain ⟨a, b, c, d, e, _, h⟩ := C85_mass (by positivity) (zpow_lt_one_of_neg₀ (by norm_num) (by norm_num)) (unbounded_accurate 53) _ rfl _ _
    (h1 0 (by norm_num))
  exact ⟨ws 0, ws 1, h1 0 (by norm_num), a, b, c, d, e, h⟩

/-- C86: in doubles, the position after a thousand steps of one metre is within the bound (about 10^-10 m) of 1000 m ... -/
example : ∃ ws, AcceptedRun (rfG dbl (rfYield dbl) false) 1000 ws ∧ (ws 0).st.pos = exactly 0 ∧
    |val (ws 1000).st.pos - 1000| ≤ 1000 * (1 + (2 : ℝ) ^ (-(53 : ℕ) : ℤ)) ^ 1000 *
      ((2 : ℝ) ^ (-(53 : ℕ) : ℤ) * 1000 + (2 : ℝ) ^ ((-1074 : ℤ) - 1)) := by
  obtain ⟨ws, h0, h1, _, _⟩ := rf_run doubles_decent false 0 (by norm_num) 1000 le_rfl
  have := C86_position_drift (by positivity) (by positivity) (binary_accurate 53 (-1074)) _ 1000 ws h1
  have e0 : val (ws 0).st.pos = 0 := by rw [h0]; rfl
  have e1 : val (rfG dbl (rfYield dbl) false).dx = 1 := rfl
  rw [e0, e1] at this
  refine ⟨ws, h1, by rw [h0]; rfl, ?_⟩
  simpa using this

/-- ... every step is felt, so that the log has one row per step ... -/
example : ∃ ws, AcceptedRun (rfG dbl (rfYield dbl) false) 1000 ws ∧ (ws 1000).log.length = 1000 := by
  obtain ⟨ws, h0, h1, h2, h3⟩ := rf_run doubles_decent false 0 (by norm_num) 1000 le_rfl
  have D := doubles_decent
  have hint : ∀ i : ℕ, i ≤ 1000 → val (ws i).st.pos = i := by
    intro i
    induction i with
    | zero => intro _; rw [h0]; simp [rfWorld, newWorld]
    | succ i ih =>
      intro hi
      rw [h3 i (by omega), ih (by omega)]
      have := D.int ((i + 1 : ℕ) : ℤ) (by rw [abs_of_nonneg (by omega)]; norm_num; omega)
      push_cast at this ⊢
      exact this
  refine ⟨ws, h1, (C86_row_per_step _ 1000 ws h1 (by rw [h0]; rfl) fun i hi => ?_).1⟩
  refine C86_step_is_felt D.accurate _ _ _ (h1 i hi) ?_
  rw [hint i (by omega)]
  show _ < (1 : ℝ)
  have : (i : ℝ) ≤ 999 := by exact_mod_cast (by omega : i ≤ 999)
  rw [show val (rfG dbl (rfYield dbl) false).dx = 1 from rfl, abs_of_nonneg (by positivity)]
  norm_num
  linarith

/-- In doubles one metre is lost at 2^60 m. -/
theorem dbl_absorbs : dbl (2 ^ 60 + 1) = 2 ^ 60 := by
  have hlog : Int.log 2 ((2 : ℝ) ^ 60 + 1) = 60 := by
    apply le_antisymm
    · have hlow : (2 : ℝ) ^ Int.log 2 ((2 : ℝ) ^ 60 + 1) ≤ (2 : ℝ) ^ 60 + 1 := by
        exact_mod_cast Int.zpow_log_le_self (b := 2) (by norm_num) (show (0 : ℝ) < 2 ^ 60 + 1 by norm_num)
      have : (2 : ℝ) ^ Int.log 2 ((2 : ℝ) ^ 60 + 1) < (2 : ℝ) ^ (61 : ℤ) := lt_of_le_of_lt hlow (by norm_num)
      have := (zpow_lt_zpow_iff_right₀ (show (1 : ℝ) < 2 by norm_num)).mp this
      omega
    · exact (Int.zpow_le_iff_le_log (b := 2) (by norm_num) (by norm_num)).mp (by norm_num)
  show binary 53 (-1074) (2 ^ 60 + 1) = 2 ^ 60
  rw [binary_of_nonneg _ _ (by norm_num)]
  unfold binaryPos quantum
  rw [hlog]
  norm_num

/-- ... but a flow that starts there overwrites its row at every step: two accepted steps, one row. -/
example : ∃ ws, AcceptedRun (rfG dbl (rfYield dbl) false) 2 ws ∧ (ws 2).iteration = 2 ∧
    (ws 2).log.length = (ws 1).log.length := by
  obtain ⟨ws, h0, h1, h2, h3⟩ := rf_run doubles_decent false (2 ^ 60) le_rfl 2 (by norm_num)
  refine ⟨ws, h1, (h2 2 le_rfl).iter, ?_⟩
  refine (C86_absorbed_step _ _ _ _ (h1 0 (by norm_num)) (h1 1 (by norm_num)) ?_).1
  apply Rounded.ext
  rw [h3 0 (by norm_num), h0]
  exact dbl_absorbs

end PyFlowGo
