import Verif.Props.RoundedVelocity
import Verif.Props.RoundedExample
import Verif.Proofs.RoundStops
/-
  C130: the hypotheses are met by doubles, and doubles do stop a flow below its yield point.
-/
set_option linter.unusedSectionVars false
namespace PyFlowGo
open Spec Rounded

theorem decent_plain {rd : ℝ → ℝ} (D : Decent rd) : PlainNumbers rd := by
  intro x hx
  have h1 := D.frac 1 1
  have h2 := D.int 1
  have h3 := D.frac 3 1
  have h4 := D.int 2
  have h5 := D.int 3
  simp only [Set.mem_insert_iff, Set.mem_singleton_iff] at hx
  unfold Representable
  rcases hx with rfl | rfl | rfl | rfl | rfl <;> norm_num at * <;> assumption

/-- 53 bits meet the assumptions with `u = 2^-53`. -/
example : Rounding (unbounded 53) ∧ Accurate (1 / 2 ^ 53) 0 (unbounded 53) ∧ PlainNumbers (unbounded 53) ∧
    (0 : ℝ) ≤ 1 / 2 ^ 53 ∧ (1 : ℝ) / 2 ^ 53 ≤ 1 / 1000 := by
  refine ⟨unbounded_rounding _ (by norm_num), ?_, decent_plain unbounded_decent, by positivity, by norm_num⟩
  have := unbounded_accurate 53
  rwa [show (2 : ℝ) ^ (-((53 : ℕ) : ℤ)) = 1 / 2 ^ 53 by norm_num] at this

/-- The witness: the flow of `rfG` under the yield strength of `bll`, on a channel where the basal stress is `2 + 2^-50`. -/
noncomputable def stopG (rd : ℝ → ℝ) : Integrator (Rounded rd) := rfG rd (.bll (.constant (exactly 0))) false

noncomputable def stopWorld (rd : ℝ → ℝ) : World (Rounded rd) :=
  newWorld { rfTerrain rd with gravity := exactly (2 + 1 / 2 ^ 50), defaultSlope := exactly (3373259426 / 2 ^ 31) }
    { crystal := 0.35, temp := exactly 1000, pos := exactly 0, time := exactly 0, strain := exactly 0 } []

section
variable {rd : ℝ → ℝ} (H : Nearest53 rd)
include H

theorem stop_yield : (stopG rd).models.lava.yieldStrength (stopWorld rd).st = .ok (exactly 2) := by
  have D := H.decent
  show (do
    let a ← PyNum.mpow 10.0 (80.0 * ((0.35 : Rounded rd) - 0.35))
    let b ← PyNum.mpow 10.0 (1.98 * ((0.35 : Rounded rd) + exactly 0 - 0.35))
    return a + b) = _
  show (do
    let a ← powWith _ _ _ _
    let b ← powWith _ _ _ _
    return a + b) = _
  have e1 : val (80.0 * ((0.35 : Rounded rd) - 0.35)) = 0 := by
    rw [val_mul, val_sub, sub_self, D.zero, mul_zero, D.zero]
  have e2 : val (1.98 * ((0.35 : Rounded rd) + exactly 0 - 0.35)) = 0 := by
    have : val ((0.35 : Rounded rd) + exactly 0) = val (0.35 : Rounded rd) := by
      rw [val_add, val_exactly, add_zero, val_lit]
      exact D.rounding.idem _
    rw [val_mul, val_sub, this, sub_self, D.zero, mul_zero, D.zero]
  rw [powWith_zero e1, ok_bind, powWith_zero e2, ok_bind, pure_ok_iff]
  apply eq_exactly
  rw [val_add, val_exactly, D.one]
  have := D.int 2
  norm_num at this ⊢
  exact this

theorem stop_basal : (stopG rd).models.lava.basalStress (stopWorld rd).terrain (stopWorld rd).st =
    .ok (exactly (2 + 1 / 2 ^ 50)) := by
  have D := H.decent
  unfold Lava.basalStress
  show (do let sl ← Except.ok (exactly (3373259426 / 2 ^ 31)); _) = _
  rw [ok_bind]
  show pure (exactly 1 * (rfLava rd _).density _ * exactly (2 + 1 / 2 ^ 50) * PyNum.sin (exactly (3373259426 / 2 ^ 31))) = _
  rw [rf_density D, pure_ok_iff]
  apply eq_exactly
  show rd (rd (rd (1 * 1) * (2 + 1 / 2 ^ 50)) * rd (Real.sin (3373259426 / 2 ^ 31))) = _
  rw [near_sine H, one_mul, D.one, one_mul, near_gravity H, mul_one, near_gravity H]

theorem stop_viscosity : (stopG rd).models.lava.bulkViscosity (stopWorld rd).st = .ok (exactly 1) := by
  refine rf_bulk H.decent _ _ ?_
  have := H.decent.int 1000
  norm_num at this
  show rd 1000 ≠ 0
  rw [this]; norm_num

theorem stop_velocity : ∃ x, (stopG rd).models.lava.meanVelocity (stopWorld rd).terrain (stopWorld rd).st = .ok (exactly 0, x) := by
  have D := H.decent
  rw [rounded_meanVelocity D.rounding, stop_yield H, ok_bind, stop_basal H, ok_bind]
  unfold velocityPass
  rw [stop_viscosity H, ok_bind]
  have hb : (2 + 1 / 2 ^ 50 : ℝ) ≠ 0 := by positivity
  have l2 : val (2.0 : Rounded rd) ≠ 0 := by
    rw [val_lit]
    have : rd 2 = 2 := by have := D.int 2; simpa using this
    norm_num [this]
  have hm : val ((3.0 : Rounded rd) * exactly 1) ≠ 0 := by
    rw [val_mul, rf_lit_three D]; simp [D.three]
  have hf : velocityFormula (stopWorld rd).terrain.depth (exactly (2 + 1 / 2 ^ 50)) (exactly 1) (exactly 2) =
      .ok (exactly 0 : Rounded rd) := by
    cases hc : velocityFormula (stopWorld rd).terrain.depth (exactly (2 + 1 / 2 ^ 50)) (exactly 1) (exactly 2 : Rounded rd) with
    | error er =>
      exfalso
      unfold velocityFormula at hc
      rw [div_eq hm rfl, ok_bind, div_eq l2 rfl, ok_bind, div_eq (y := exactly (2 + 1 / 2 ^ 50)) (by simpa using hb) rfl, ok_bind] at hc
      cases hc
    | ok v =>
      obtain ⟨_, hv⟩ := round_formula (decent_plain D) _ _ _ _ _ hc
      simp only [val_exactly] at hv
      rw [near_bracket H, mul_zero, D.zero] at hv
      congr 1
  rw [hf, ok_bind]
  have hd : val (stopWorld rd).terrain.depth ≠ 0 := by show (1 : ℝ) ≠ 0; norm_num
  rw [div_eq hd rfl, ok_bind]
  exact ⟨_, rfl⟩

/-- No stop criterion applies, and the next step ends the run without a row. -/
theorem stop_early : ∃ w', singleStep (stopG rd) (stopWorld rd) = (.ok (), w') ∧ w'.finished = true ∧ w'.log = (stopWorld rd).log := by
  obtain ⟨x, hv⟩ := stop_velocity H
  have hle : leB (exactly 0 : Rounded rd) 0.0 = true := by
    show decide ((0 : ℝ) ≤ val (0.0 : Rounded rd)) = true
    rw [rf_lit_zero H.decent]; simp
  have h : meanVelocityM (stopG rd).models.lava (stopWorld rd) =
      (.ok (exactly 0), { stopWorld rd with st := { (stopWorld rd).st with strain := x } }) := by
    unfold meanVelocityM
    rw [hv]
  refine ⟨{ stopWorld rd with st := { (stopWorld rd).st with strain := x }, finished := true }, ?_, rfl, rfl⟩
  unfold singleStep
  rw [PyM.bind_of_ok h, if_pos hle]
  rfl

end

/-- **C130**. In doubles the exception near the yield point is real: here the core is hotter than the solidus, the viscosity model
    holds, the channel goes on and the yield strength is below the basal stress, so that the exact velocity is positive; yet
    `single_step` takes the velocity for zero, ends the run and writes no row. -/
theorem C130_stops_early : ∃ (g : Integrator (Rounded dbl)) (w : World (Rounded dbl)) (tho0 thob visc : Rounded dbl),
    w.finished = false ∧ val g.models.cryst.solidTemperature < val w.st.temp ∧ g.models.lava.notCompatible w.st = .ok false ∧
    val w.st.pos < val w.terrain.maxLength ∧
    g.models.lava.yieldStrength w.st = .ok tho0 ∧ g.models.lava.basalStress w.terrain w.st = .ok thob ∧
    g.models.lava.bulkViscosity w.st = .ok visc ∧ 0 < val tho0 ∧ val tho0 < val thob ∧ 0 < val visc ∧
    0 < binghamVelocity (val w.terrain.depth) (val thob) (val visc) (val tho0) ∧
    ∃ w', singleStep g w = (.ok (), w') ∧ w'.finished = true ∧ w'.log = w.log := by
  have H := doubles_nearest
  have D := H.decent
  refine ⟨stopG dbl, stopWorld dbl, _, _, _, rfl, ?_, ?_, ?_, stop_yield H, stop_basal H, stop_viscosity H, ?_, ?_, ?_, ?_, stop_early H⟩
  · show (0 : ℝ) < 1000
    norm_num
  · show (do let q ← PyNum.div (0.35 : Rounded dbl) (exactly 1); return ltB 1.0 q) = _
    have hx : dbl (35 / 100) ≤ 1 := by
      have := D.le 1 0 (x := 35 / 100) (by norm_num)
      simpa using this
    rw [div_eq (z := dbl (35 / 100)) (by simp) (by
      rw [val_exactly, div_one, val_lit]
      have : (OfScientific.ofScientific 35 true 2 : ℝ) = 35 / 100 := by norm_num
      rw [this]
      exact D.rounding.idem _), ok_bind, pure_ok_iff]
    show decide (val (1.0 : Rounded dbl) < dbl (35 / 100)) = false
    rw [rf_lit_one D, decide_eq_false_iff_not, not_lt]
    exact hx
  · show (0 : ℝ) < 2 ^ 80
    positivity
  · show (0 : ℝ) < 2
    norm_num
  · show (2 : ℝ) < 2 + 1 / 2 ^ 50
    norm_num
  · show (0 : ℝ) < 1
    norm_num
  · show 0 < binghamVelocity 1 (2 + 1 / 2 ^ 50) 1 2
    unfold binghamVelocity
    norm_num

/-- C130: the first step of the thousand-step flow: its velocity is positive by `C130_moves_below_yield`. -/
example : ∃ v x, (rfLava (unbounded 53) (rfYield (unbounded 53))).meanVelocity (rfTerrain _) (rfWorld (unbounded 53) 0).st = .ok (v, x) ∧
    0 < val v := by
  have D := unbounded_decent
  have hA : Accurate (1 / 2 ^ 53) 0 (unbounded 53) := by
    have := unbounded_accurate 53
    rwa [show (2 : ℝ) ^ (-((53 : ℕ) : ℤ)) = 1 / 2 ^ 53 by norm_num] at this
  have hT : unbounded 53 (val (rfWorld (unbounded 53) 0).st.temp) ≠ 0 := by
    have := D.int 1000
    norm_num at this
    show unbounded 53 1000 ≠ 0
    rw [this]; norm_num
  obtain ⟨t0, hy, a, b⟩ := rf_yield D (rfWorld (unbounded 53) 0).st (by show (0 : ℝ) ≤ 1000; norm_num)
  have h := rf_velocity D (rfYield (unbounded 53)) _ hT t0 hy a b
  refine ⟨_, _, h, ?_⟩
  obtain ⟨tho0, thob, visc, e1, e2, e3, e4⟩ := C130_moves_below_yield D.rounding (by positivity) (by norm_num) hA
    (decent_plain D) _ _ _ _ _ h
  rw [show (rfLava (unbounded 53) (rfYield (unbounded 53))).yieldStrength _ = _ from hy] at e1
  rw [rf_basal D] at e2
  rw [rf_bulk D _ _ hT] at e3
  cases e1; cases e2; cases e3
  obtain ⟨l, r⟩ := rf_tau D
  have s : val t0 ≤ 1 / 64 := b.trans (by norm_num)
  refine e4 a (s.trans (by rw [val_exactly]; linarith)) (by rw [val_exactly]; norm_num) (by show (0 : ℝ) < 1; norm_num) ?_
  rw [val_exactly]
  nlinarith

/-- C130: the second step of that flow moves, by `C130_next_step_moves`. -/
example : ∃ w w' v x, AcceptedStep (rfG (unbounded 53) (rfYield (unbounded 53)) false) w w' ∧ w'.finished = false ∧
    (rfG (unbounded 53) (rfYield (unbounded 53)) false).models.lava.meanVelocity w'.terrain w'.st = .ok (v, x) ∧ 0 < val v := by
  have D := unbounded_decent
  have hA : Accurate (1 / 2 ^ 53) 0 (unbounded 53) := by
    have := unbounded_accurate 53
    rwa [show (2 : ℝ) ^ (-((53 : ℕ) : ℤ)) = 1 / 2 ^ 53 by norm_num] at this
  obtain ⟨ws, h0, h1, h2, _⟩ := rf_run D false 0 (by norm_num) 1 (by norm_num)
  have I := h2 1 le_rfl
  have I0 := h2 0 (by norm_num)
  have hT1 : 1 ≤ val (ws 1).st.temp := le_trans (by norm_num) I.temp0
  have hT : unbounded 53 (val (ws 1).st.temp) ≠ 0 := by
    have := D.ge 1 0 (x := val (ws 1).st.temp) (by simpa using hT1)
    intro e
    rw [e] at this
    norm_num at this
  obtain ⟨t0, hy, a, b⟩ := rf_yield D (ws 1).st (by linarith)
  have h := rf_velocity D (rfYield (unbounded 53)) _ hT t0 hy a b
  have hv : (rfG (unbounded 53) (rfYield (unbounded 53)) false).models.lava.meanVelocity (ws 1).terrain (ws 1).st =
      .ok (exactly (rfV (unbounded 53)), exactly (unbounded 53 (unbounded 53 (3 * rfV (unbounded 53))))) := by
    rw [I.terrain]; exact h
  refine ⟨ws 0, ws 1, _, _, h1 0 (by norm_num), I.unfinished, hv, ?_⟩
  obtain ⟨tho0, thob, visc, e1, e2, e3, _, e4⟩ := C130_next_step_moves D.rounding (by positivity) (by norm_num) hA
    (decent_plain D) _ _ _ (h1 0 (by norm_num)) I.unfinished (by rw [I0.terrain]; show (0 : ℝ) < 1; norm_num) _ _ hv
  rw [show (rfG (unbounded 53) (rfYield (unbounded 53)) false).models.lava = rfLava _ _ from rfl] at e1 e2 e3
  rw [show (rfLava (unbounded 53) (rfYield (unbounded 53))).yieldStrength _ = _ from hy] at e1
  rw [I.terrain, rf_basal D] at e2
  rw [rf_bulk D _ _ hT] at e3
  cases e1; cases e2; cases e3
  obtain ⟨l, r⟩ := rf_tau D
  have s : val t0 ≤ 1 / 64 := b.trans (by norm_num)
  refine e4 a (by rw [val_exactly]; norm_num) ?_
  rw [val_exactly]
  nlinarith

end PyFlowGo
