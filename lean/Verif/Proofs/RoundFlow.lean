import Verif.Proofs.RoundFormat
import Verif.Props.Rounded
import Mathlib.Analysis.SpecialFunctions.Trigonometric.Bounds
/-
  A family of concrete flows in rounded arithmetic, to show that the hypotheses of C83-C86 are met.
-/
set_option linter.unusedSectionVars false
namespace PyFlowGo
open Spec Rounded

/-- An arithmetic with at least 40 bits in the range of the example. -/
structure Decent (rd : ℝ → ℝ) : Prop where
  rounding : Rounding rd
  dyadic : ∀ m k : ℤ, |m| < 2 ^ 40 → -200 ≤ k → k ≤ 200 → rd (m * (2 : ℝ) ^ k) = m * (2 : ℝ) ^ k
  accurate : Accurate (1 / 2 ^ 30) (1 / 2 ^ 30) rd
  absorb : ∀ x, |x| ≤ 1 / 2 ^ 60 → rd (1 + x) = 1

theorem doubles_decent : Decent (binary 53 (-1074)) where
  rounding := binary_rounding _ _ (by norm_num)
  dyadic m k hm h1 h2 := binary_dyadic _ _ m k (by omega) (by omega)
  accurate x := by
    refine le_trans (binary_accurate 53 (-1074) x) (add_le_add (mul_le_mul_of_nonneg_right ?_ (abs_nonneg x)) ?_)
    · rw [show (1 / 2 ^ 30 : ℝ) = (2 : ℝ) ^ (-30 : ℤ) by norm_num]
      exact zpow_le_zpow_right₀ (by norm_num) (by norm_num)
    · rw [show (1 / 2 ^ 30 : ℝ) = (2 : ℝ) ^ (-30 : ℤ) by norm_num]
      exact zpow_le_zpow_right₀ (by norm_num) (by norm_num)
  absorb x hx := binary_absorb _ hx (by norm_num)

theorem unbounded_decent : Decent (unbounded 53) where
  rounding := unbounded_rounding _ (by norm_num)
  dyadic m k hm _ _ := unbounded_dyadic _ m k (by omega)
  accurate x := by
    refine le_trans (unbounded_accurate 53 x) (add_le_add (mul_le_mul_of_nonneg_right ?_ (abs_nonneg x)) (by norm_num))
    rw [show (1 / 2 ^ 30 : ℝ) = (2 : ℝ) ^ (-30 : ℤ) by norm_num]
    exact zpow_le_zpow_right₀ (by norm_num) (by norm_num)
  absorb x hx := unbounded_absorb hx

section
variable {rd : ℝ → ℝ} (D : Decent rd)
include D

theorem Decent.int (m : ℤ) (h : |m| < 2 ^ 40 := by norm_num) : rd m = m := by
  have := D.dyadic m 0 h (by norm_num) (by norm_num)
  simpa using this

theorem Decent.frac (m : ℤ) (n : ℕ) (h : |m| < 2 ^ 40 := by norm_num) (hn : n ≤ 200 := by norm_num) :
    rd (m / 2 ^ n) = m / 2 ^ n := by
  have := D.dyadic m (-n) h (by omega) (by omega)
  rwa [zpow_neg, zpow_natCast, ← div_eq_mul_inv] at this

theorem Decent.zero : rd 0 = 0 := D.rounding.zero
theorem Decent.one : rd 1 = 1 := by have := D.int 1; simpa using this
theorem Decent.three : rd 3 = 3 := by have := D.int 3; simpa using this
theorem Decent.le {x : ℝ} (m : ℤ) (n : ℕ) (hx : x ≤ m / 2 ^ n) (h : |m| < 2 ^ 40 := by norm_num) (hn : n ≤ 200 := by norm_num) :
    rd x ≤ m / 2 ^ n := by
  have := D.rounding.mono hx
  rwa [D.frac m n h hn] at this
theorem Decent.ge {x : ℝ} (m : ℤ) (n : ℕ) (hx : (m : ℝ) / 2 ^ n ≤ x) (h : |m| < 2 ^ 40 := by norm_num)
    (hn : n ≤ 200 := by norm_num) : m / 2 ^ n ≤ rd x := by
  have := D.rounding.mono hx
  rwa [D.frac m n h hn] at this

end

namespace Rounded
variable {rd : ℝ → ℝ}

/-- A number read from a file, taken as it is. -/
def exactly (x : ℝ) : Rounded rd := x
@[simp] theorem val_exactly (x : ℝ) : val (exactly x : Rounded rd) = x := rfl
theorem eq_exactly {x : Rounded rd} {y : ℝ} (h : val x = y) : x = exactly y := h

theorem div_eq {x y : Rounded rd} {z : ℝ} (h : val y ≠ 0) (e : rd (val x / val y) = z) :
    PyNum.div x y = .ok (exactly z) := Rounded.div_ok.mpr ⟨h, e.symm⟩

theorem powWith_zero {a b : Err} {x y : Rounded rd} (h : val y = 0) : powWith a b x y = .ok (exactly (rd 1)) := by
  unfold powWith
  rw [if_neg (by rw [h]; simp), if_neg, h, Real.rpow_zero]
  · rfl
  · rintro ⟨_, hn⟩
    exact hn ⟨0, by rw [h]; simp⟩

end Rounded

/-- Constant viscosity 1 Pa s, density 1, latent heat 2^20; the yield strength is a parameter. -/
noncomputable def rfLava (rd : ℝ → ℝ) (yld : YieldModel (Rounded rd)) : Lava (Rounded rd) :=
  { eruptionT := exactly 1000, buffer := exactly 0, latentHeat := exactly (2 ^ 20), densityDre := exactly 1,
    melt := .vft (exactly 0) (exactly 0) (exactly 0), rel := .kd (exactly 1) (exactly 0), bub := .no, yld := yld,
    ves := .constant (exactly 0) }

noncomputable def rfTerrain (rd : ℝ → ℝ) : Terrain (Rounded rd) :=
  { effusionRateInit := exactly 0, depth := exactly 1, width := exactly 1, gravity := exactly 1,
    defaultSlope := exactly (1 / 4), spline := none, maxLength := exactly (2 ^ 80), smoothing := false,
    smoothingPoints := exactly (-1) }

noncomputable def rfModels (rd : ℝ → ℝ) (yld : YieldModel (Rounded rd)) : Models (Rounded rd) :=
  { lava := rfLava rd yld
    air := { temp := exactly 300, windSpeed := exactly 1, ch := exactly 1, rho := exactly 1, cp := exactly 1 }
    crust := .constant (exactly 500)
    cover := .basic (exactly 0) (exactly 1)
    cryst := .bimodal (exactly 0) (exactly 0) (exactly 1) (exactly 1) (exactly 0)
    fluxes := [.rain (exactly 1) (exactly 1) (exactly 1)] }

noncomputable def rfG (rd : ℝ → ℝ) (yld : YieldModel (Rounded rd)) (mass : Bool) : Integrator (Rounded rd) :=
  { dx := exactly 1, models := rfModels rd yld, massConservation := mass }

/-- The velocity of the example. -/
noncomputable def rfV (rd : ℝ → ℝ) : ℝ := rd (rd (Real.sin (1 / 4)) / 3)

/-- The cooling per metre of the example. -/
noncomputable def rfC (rd : ℝ → ℝ) : ℝ := rd (1 / rd (rfV rd * 2 ^ 20))

section
variable {rd : ℝ → ℝ} (D : Decent rd) (yld : YieldModel (Rounded rd))
include D

theorem rf_tau : 1 / 8 ≤ rd (Real.sin (1 / 4)) ∧ rd (Real.sin (1 / 4)) ≤ 1 := by
  constructor
  · have h : (1 : ℝ) / 8 ≤ Real.sin (1 / 4) := by
      have := Real.sin_gt_sub_cube (x := 1 / 4) (by norm_num)
      norm_num at this ⊢
      linarith
    have := D.ge 1 3 (x := Real.sin (1 / 4)) (by norm_num; linarith)
    norm_num at this ⊢
    exact this
  · have := D.le 1 0 (x := Real.sin (1 / 4)) (by simpa using Real.sin_le_one _)
    simpa using this

theorem rf_v : 1 / 32 ≤ rfV rd ∧ rfV rd ≤ 1 := by
  obtain ⟨h1, h2⟩ := rf_tau D
  unfold rfV
  constructor
  · have := D.ge 1 5 (x := rd (Real.sin (1 / 4)) / 3) (by norm_num at h1 ⊢; linarith)
    norm_num at this ⊢
    exact this
  · have := D.le 1 0 (x := rd (Real.sin (1 / 4)) / 3) (by norm_num at h2 ⊢; linarith)
    simpa using this

theorem rf_den : 2 ^ 15 ≤ rd (rfV rd * 2 ^ 20) ∧ rd (rfV rd * 2 ^ 20) ≤ 2 ^ 20 := by
  obtain ⟨h1, h2⟩ := rf_v D
  constructor
  · have := D.ge (2 ^ 15) 0 (x := rfV rd * 2 ^ 20) (by norm_num; linarith)
    norm_num at this ⊢
    exact this
  · have := D.le (2 ^ 20) 0 (x := rfV rd * 2 ^ 20) (by norm_num; linarith)
    norm_num at this ⊢
    exact this

theorem rf_c : 1 / 2 ^ 20 ≤ rfC rd ∧ rfC rd ≤ 1 / 2 ^ 15 := by
  obtain ⟨h1, h2⟩ := rf_den D
  have hpos : 0 < rd (rfV rd * 2 ^ 20) := lt_of_lt_of_le (by norm_num) h1
  unfold rfC
  constructor
  · have := D.ge 1 20 (x := 1 / rd (rfV rd * 2 ^ 20)) (by
      rw [Int.cast_one]
      exact one_div_le_one_div_of_le hpos h2)
    rwa [Int.cast_one] at this
  · have := D.le 1 15 (x := 1 / rd (rfV rd * 2 ^ 20)) (by
      rw [Int.cast_one]
      exact one_div_le_one_div_of_le (by norm_num) h1)
    rwa [Int.cast_one] at this

theorem rf_lit_one : val (1.0 : Rounded rd) = 1 := by
  rw [val_lit]; norm_num [D.one]
theorem rf_lit_three : val (3.0 : Rounded rd) = 3 := by
  rw [val_lit]; norm_num [D.three]
theorem rf_lit_zero : val (0.0 : Rounded rd) = 0 := by
  rw [val_lit]; norm_num [D.zero]

theorem rf_density (s : FlowState (Rounded rd)) : (rfLava rd yld).density s = exactly 1 := by
  apply eq_exactly
  show rd (1 * rd (val (1.0 : Rounded rd) - 0)) = 1
  rw [rf_lit_one D]; simp [D.one]

theorem rf_basal (s : FlowState (Rounded rd)) :
    (rfLava rd yld).basalStress (rfTerrain rd) s = .ok (exactly (rd (Real.sin (1 / 4)))) := by
  unfold Lava.basalStress
  show (do let sl ← Except.ok (exactly (1 / 4)); _) = _
  rw [ok_bind, rf_density D, pure_ok_iff]
  apply eq_exactly
  show rd (rd (rd (1 * 1) * 1) * rd (Real.sin (1 / 4))) = _
  simp [D.one, D.rounding.idem]

theorem rf_bulk (s : FlowState (Rounded rd)) (hT : rd (val s.temp) ≠ 0) :
    (rfLava rd yld).bulkViscosity s = .ok (exactly 1) := by
  have h1 : (rfLava rd yld).melt.viscosity s = .ok (exactly 1) := by
    show (do let q ← PyNum.div (exactly 0) (s.temp - exactly 0); PyNum.pow 10.0 (exactly 0 + q)) = _
    rw [div_eq (z := 0) (by rw [val_sub]; simpa using hT) (by simp [D.zero]), ok_bind]
    show powWith _ _ _ _ = _
    rw [powWith_zero (by rw [val_add]; simp [D.zero]), D.one]
  have h2 : (rfLava rd yld).rel.relative s = .ok (exactly 1) := by
    show (do let q ← PyNum.div s.crystal (exactly 1); PyNum.mpow (1.0 - q) (-(exactly 0) * exactly 1)) = _
    rw [div_eq (z := rd (val s.crystal)) (by simp) (by simp), ok_bind]
    show powWith _ _ _ _ = _
    rw [powWith_zero (by rw [val_mul, val_neg]; simp [D.zero]), D.one]
  have h3 : (rfLava rd yld).bub.relative s = .ok (exactly 1) := by
    show Except.ok _ = _
    congr 1
    exact eq_exactly (rf_lit_one D)
  unfold Lava.bulkViscosity
  rw [h1, ok_bind, h2, ok_bind, h3, ok_bind, pure_ok_iff]
  apply eq_exactly
  show rd (rd (1 * 1) * 1) = 1
  simp [D.one]

theorem rf_velocity (s : FlowState (Rounded rd)) (hT : rd (val s.temp) ≠ 0) (t0 : Rounded rd)
    (hy : yld.strength s = .ok t0) (h0 : 0 ≤ val t0) (h1 : val t0 ≤ 1 / 2 ^ 100) :
    (rfLava rd yld).meanVelocity (rfTerrain rd) s = .ok (exactly (rfV rd), exactly (rd (rd (3 * rfV rd)))) := by
  have hy' : (rfLava rd yld).yieldStrength s = .ok t0 := hy
  have ht := rf_tau D
  have ht0 : rd (Real.sin (1 / 4)) ≠ 0 := by intro h; rw [h] at ht; norm_num at ht
  rw [rounded_meanVelocity D.rounding, hy', ok_bind, rf_basal D, ok_bind]
  unfold velocityPass
  rw [rf_bulk D yld s hT, ok_bind]
  have hf : velocityFormula (rfTerrain rd).depth (exactly (rd (Real.sin (1 / 4)))) (exactly 1) t0 =
      .ok (exactly (rfV rd)) := by
    unfold velocityFormula
    rw [div_eq (z := rfV rd), ok_bind]
    · have hτ : 0 < rd (Real.sin (1 / 4)) := lt_of_lt_of_le (by norm_num) ht.1
      have hr0 : 0 ≤ rd (val t0 / rd (Real.sin (1 / 4))) := D.rounding.nonneg (div_nonneg h0 hτ.le)
      have hr1 : rd (val t0 / rd (Real.sin (1 / 4))) ≤ 1 / 2 ^ 97 := by
        have := D.le 1 97 (x := val t0 / rd (Real.sin (1 / 4))) (by
          rw [div_le_iff₀ hτ]
          have := ht.1
          norm_num at h1 ⊢
          linarith)
        rwa [Int.cast_one] at this
      have hc : rd (val (3.0 : Rounded rd) / val (2.0 : Rounded rd)) = 3 / 2 := by
        have h2 : rd 2 = 2 := by have := D.int 2; simpa using this
        have h32 : rd (3 / 2) = 3 / 2 := by have := D.frac 3 1; simpa using this
        rw [rf_lit_three D, val_lit]
        norm_num [h2, h32]
      have hcr0 : 0 ≤ rd (3 / 2 * rd (val t0 / rd (Real.sin (1 / 4)))) := D.rounding.nonneg (by positivity)
      have hcr1 : rd (3 / 2 * rd (val t0 / rd (Real.sin (1 / 4)))) ≤ 1 / 2 ^ 60 := by
        have := D.le 1 60 (x := 3 / 2 * rd (val t0 / rd (Real.sin (1 / 4)))) (by norm_num at hr1 ⊢; linarith)
        rwa [Int.cast_one] at this
      have hn0 : 0 ≤ rd (rd (val t0 / rd (Real.sin (1 / 4))) ^ 3) := D.rounding.nonneg (by positivity)
      have hn1 : rd (rd (val t0 / rd (Real.sin (1 / 4))) ^ 3) ≤ 1 / 2 ^ 60 := by
        have := D.le 1 60 (x := rd (val t0 / rd (Real.sin (1 / 4))) ^ 3) (by
          rw [Int.cast_one]
          calc _ ≤ (1 / 2 ^ 97 : ℝ) ^ 3 := pow_le_pow_left₀ hr0 hr1 3
            _ ≤ _ := by norm_num)
        rwa [Int.cast_one] at this
      have hh : val (0.5 : Rounded rd) = 1 / 2 := by
        rw [val_lit]
        have := D.frac 1 1
        norm_num at this ⊢
        exact this
      have hhn0 : 0 ≤ rd (1 / 2 * rd (rd (val t0 / rd (Real.sin (1 / 4))) ^ 3)) := D.rounding.nonneg (by positivity)
      have hhn1 : rd (1 / 2 * rd (rd (val t0 / rd (Real.sin (1 / 4))) ^ 3)) ≤ 1 / 2 ^ 60 := by
        have := D.le 1 60 (x := 1 / 2 * rd (rd (val t0 / rd (Real.sin (1 / 4))) ^ 3)) (by
          rw [Int.cast_one]; linarith)
        rwa [Int.cast_one] at this
      rw [div_eq (z := 3 / 2) _ hc, ok_bind,
        div_eq (y := exactly (rd (Real.sin (1 / 4)))) (z := rd (val t0 / rd (Real.sin (1 / 4)))) (by simpa using ht0) rfl, ok_bind, pure_ok_iff]
      · apply eq_exactly
        show rd (rfV rd * rd (rd (val (1.0 : Rounded rd) - rd (3 / 2 * rd (val t0 / rd (Real.sin (1 / 4))))) +
          rd (val (0.5 : Rounded rd) * rd (rd (val t0 / rd (Real.sin (1 / 4))) ^ 3)))) = _
        rw [rf_lit_one D, hh, sub_eq_add_neg, D.absorb _ (by rw [abs_neg, abs_of_nonneg hcr0]; exact hcr1),
          D.absorb _ (by rw [abs_of_nonneg hhn0]; exact hhn1), mul_one]
        exact D.rounding.idem _
      · rw [val_lit]
        have : rd 2 = 2 := by have := D.int 2; simpa using this
        norm_num [this]
    · rw [val_mul, rf_lit_three D]; simp [D.three]
    · rw [val_mul, val_mul, rf_lit_three D]
      show rd (rd (1 * rd (Real.sin (1 / 4))) / rd (3 * 1)) = _
      rw [one_mul, mul_one, D.three, D.rounding.idem]
      rfl
  rw [hf, ok_bind, div_eq (z := rd (rd (3 * rfV rd))), ok_bind]
  · rfl
  · show (1 : ℝ) ≠ 0
    norm_num
  · rw [val_mul, rf_lit_three D]
    show rd (rd (3 * rfV rd) / 1) = _
    simp

end

/-- Heat budget made of rain alone, in any arithmetic. -/
theorem rain_budget_gen {α : Type} [Add α] [Sub α] [Mul α] [Neg α] [OfScientific α] [PyNum α] (m : Models α)
    (a b c width depth : α) (w : World α) (hm : m.fluxes = [.rain a b c]) :
    ∃ w1, heatBudget m width depth w = (.ok (0.0 + a * b * c * width), w1) := by
  unfold heatBudget
  rw [hm]
  simp only [heatBudgetLoop, Flux.compute]
  exact ⟨(logNum "heat_budget" (0.0 + a * b * c * width)
    (logNum "flowgofluxheatlossrain" (a * b * c * width) w).2).2, rfl⟩

/-- The situation after `i` steps. -/
structure RfInv (rd : ℝ → ℝ) (i : Nat) (w : World (Rounded rd)) : Prop where
  terrain : w.terrain = rfTerrain rd
  iter : w.iteration = i
  unfinished : w.finished = false
  rate : i ≠ 0 → w.effusionRate = exactly (rfV rd)
  flux : w.fluxRate = some (exactly (rfV rd))
  phi0 : 0 ≤ val w.st.crystal
  phi1 : val w.st.crystal ≤ i / 2 ^ 15
  temp0 : 1000 - i / 2 ^ 15 ≤ val w.st.temp
  temp1 : val w.st.temp ≤ 1000
  pos : val w.st.pos ≤ (2 ^ 30 + i) * 2 ^ 30

theorem rf_step {rd : ℝ → ℝ} (D : Decent rd) (yld : YieldModel (Rounded rd)) (mass : Bool) (i : Nat) (hi : i < 1000)
    (w : World (Rounded rd)) (I : RfInv rd i w)
    (hy : ∀ s : FlowState (Rounded rd), 0 ≤ val s.temp → ∃ t0, yld.strength s = .ok t0 ∧ 0 ≤ val t0 ∧ val t0 ≤ 1 / 2 ^ 100) :
    ∃ w', AcceptedStep (rfG rd yld mass) w w' ∧ RfInv rd (i + 1) w' ∧ val w'.st.pos = rd (val w.st.pos + 1) := by
  have hi' : (i : ℝ) ≤ 999 := by exact_mod_cast (by omega : i ≤ 999)
  have hv := rf_v D
  have hc := rf_c D
  have hden := rf_den D
  have ht := rf_tau D
  have hvpos : 0 < rfV rd := lt_of_lt_of_le (by norm_num) hv.1
  have hvrep : rd (rfV rd) = rfV rd := D.rounding.idem _
  have hcrep : rd (rfC rd) = rfC rd := D.rounding.idem _
  have hdenrep : rd (rd (rfV rd * 2 ^ 20)) = rd (rfV rd * 2 ^ 20) := D.rounding.idem _
  have h999 : (999 : ℝ) ≤ val w.st.temp := by
    have := I.temp0
    have : (i : ℝ) / 2 ^ 15 ≤ 1 := by rw [div_le_one (by norm_num)]; norm_num; linarith
    linarith
  have hTne : rd (val w.st.temp) ≠ 0 := by
    have h1 := h999
    have h2 := D.rounding.mono h1
    have h3 : rd 999 = 999 := by have := D.int 999; simpa using this
    rw [h3] at h2
    intro h; rw [h] at h2; norm_num at h2
  have hE : w.stepEffusion (exactly (rfV rd)) = exactly (rfV rd) := by
    unfold World.stepEffusion
    rw [I.iter]
    by_cases h : i = 0
    · rw [if_pos (by simpa using h), I.terrain]
      apply eq_exactly
      show rd (rd (rfV rd * 1) * 1) = _
      simp [hvrep]
    · rw [if_neg (by simpa using h), I.rate h]
  have hwidth : channelWidth mass (w.stepEffusion (exactly (rfV rd))) w.fluxRate (exactly (rfV rd)) w.terrain.depth
      ((rfLava rd yld).density w.st) = .ok (exactly 1) := by
    have hdv : PyNum.div (exactly (rfV rd) : Rounded rd) (exactly (rfV rd) * (rfTerrain rd).depth) = .ok (exactly 1) := by
      have e : val ((exactly (rfV rd) : Rounded rd) * (rfTerrain rd).depth) = rfV rd := by
        show rd (rfV rd * 1) = _
        rw [mul_one, hvrep]
      refine div_eq (by rw [e]; exact hvpos.ne') ?_
      rw [e, val_exactly, div_self hvpos.ne', D.one]
    rw [hE, I.flux, I.terrain, rf_density D]
    cases mass
    · simp only [channelWidth, Bool.false_eq_true, if_false]
      exact hdv
    · simp only [channelWidth, if_true]
      rw [hdv, ok_bind, div_eq (z := 1) (by simp) (by simp [D.one])]
  obtain ⟨w1, hheat⟩ := rain_budget_gen (rfModels rd yld) (exactly 1) (exactly 1) (exactly 1) (exactly 1) w.terrain.depth
    { w with st := { w.st with strain := exactly (rd (rd (3 * rfV rd))) }, effusionRate := w.stepEffusion (exactly (rfV rd)) } rfl
  have hq : (0.0 + exactly 1 * exactly 1 * exactly 1 * exactly 1 : Rounded rd) = exactly 1 := by
    apply eq_exactly
    show rd (val (0.0 : Rounded rd) + rd (rd (rd (1 * 1) * 1) * 1)) = 1
    rw [rf_lit_zero D]; simp [D.one]
  rw [hq] at hheat
  obtain ⟨y, es0, htou, _, _⟩ := heatBudget_ok hheat
  have f1 : w1.terrain = rfTerrain rd := by rw [htou]; exact I.terrain
  have f2 : w1.st = { w.st with strain := y } := by rw [htou]; rfl
  have hdt : PyNum.div (-(exactly 1 : Rounded rd)) (w.stepEffusion (exactly (rfV rd)) * (rfLava rd yld).density w.st *
      (rfLava rd yld).latentHeat * exactly 1) = .ok (exactly (-rfC rd)) := by
    have e : val (w.stepEffusion (exactly (rfV rd)) * (rfLava rd yld).density w.st * (rfLava rd yld).latentHeat * exactly 1) =
        rd (rfV rd * 2 ^ 20) := by
      rw [hE, rf_density D]
      show rd (rd (rd (rfV rd * 1) * 2 ^ 20) * 1) = _
      rw [mul_one, mul_one, hvrep, hdenrep]
    have hpos : 0 < rd (rfV rd * 2 ^ 20) := lt_of_lt_of_le (by norm_num) hden.1
    refine div_eq (by rw [e]; exact hpos.ne') ?_
    rw [e, val_neg, val_exactly, neg_div, D.rounding.neg]
    rfl
  have hx : val ((exactly (-rfC rd) : Rounded rd) * (-(exactly 1)) * exactly 1) = rfC rd := by
    show rd (rd (-rfC rd * -1) * 1) = _
    simp [hcrep]
  have hphi : val (w.st.crystal + (exactly (-rfC rd) : Rounded rd) * (-(exactly 1)) * exactly 1) =
      rd (val w.st.crystal + rfC rd) := by rw [val_add, hx]
  have htemp : val (w.st.temp + (exactly (-rfC rd) : Rounded rd) * exactly 1) = rd (val w.st.temp - rfC rd) := by
    show rd (val w.st.temp + rd (-rfC rd * 1)) = _
    rw [mul_one, D.rounding.neg, hcrep]; ring_nf
  have hgrow : val w.st.crystal < rd (val w.st.crystal + rfC rd) := by
    have h1 := (abs_le.mp (D.accurate (val w.st.crystal + rfC rd))).1
    have h2 : |val w.st.crystal + rfC rd| ≤ 1 := by
      rw [abs_of_nonneg (by linarith [I.phi0, hc.1, show (0 : ℝ) ≤ 1 / 2 ^ 20 by norm_num])]
      have := I.phi1
      have : (i : ℝ) / 2 ^ 15 ≤ 999 / 2 ^ 15 := div_le_div_of_nonneg_right hi' (by norm_num)
      norm_num at *
      linarith
    have := hc.1
    norm_num at *
    linarith
  have hphi0 : 0 ≤ rd (val w.st.crystal + rfC rd) := le_trans I.phi0 hgrow.le
  have hcast : (((i + 1 : ℕ) : ℤ) : ℝ) = (i : ℝ) + 1 := by push_cast; ring
  have hphi1 : rd (val w.st.crystal + rfC rd) ≤ ((i : ℝ) + 1) / 2 ^ 15 := by
    have := D.le ((i + 1 : ℕ) : ℤ) 15 (x := val w.st.crystal + rfC rd) (by
      rw [hcast, add_div]; exact add_le_add I.phi1 hc.2) (by rw [abs_of_nonneg (by omega)]; norm_num; omega)
    rwa [hcast] at this
  have htemp1 : rd (val w.st.temp - rfC rd) ≤ 1000 := by
    have := D.le 1000 0 (x := val w.st.temp - rfC rd) (by
      have := I.temp1; have := hc.1; norm_num at *; linarith)
    simpa using this
  have htemp0 : 1000 - ((i : ℝ) + 1) / 2 ^ 15 ≤ rd (val w.st.temp - rfC rd) := by
    have hm : (1000 : ℝ) - ((i : ℝ) + 1) / 2 ^ 15 ≤ val w.st.temp - rfC rd := by
      have := I.temp0; have := hc.2
      rw [add_div]; linarith
    have hcast2 : (((1000 * 2 ^ 15 - ((i + 1 : ℕ) : ℤ) : ℤ)) : ℝ) / 2 ^ 15 = 1000 - ((i : ℝ) + 1) / 2 ^ 15 := by
      push_cast; ring
    have := D.ge (1000 * 2 ^ 15 - ((i + 1 : ℕ) : ℤ)) 15 (x := val w.st.temp - rfC rd) (by rw [hcast2]; exact hm) (by
      rw [abs_lt]; constructor <;> norm_num <;> omega)
    rwa [hcast2] at this
  have hsmall : ((i : ℝ) + 1) / 2 ^ 15 ≤ 1 / 2 := by
    rw [div_le_iff₀ (by norm_num)]; norm_num; linarith
  have hpos : rd (val w.st.pos + 1) ≤ 2 ^ 61 := by
    have := D.dyadic 1 61 (by norm_num) (by norm_num) (by norm_num)
    have h2 := D.rounding.mono (show val w.st.pos + 1 ≤ ((1 : ℤ) : ℝ) * (2 : ℝ) ^ (61 : ℤ) by
      have := I.pos; norm_num at *; linarith)
    rw [this] at h2
    norm_num at h2 ⊢
    exact h2
  obtain ⟨ta, ha, ha0, ha1⟩ := hy w.st (by linarith)
  obtain ⟨tb, hb, hb0, hb1⟩ := hy w1.st (by rw [f2]; exact le_trans (by norm_num) h999)
  obtain ⟨t0, ht0, _, ht0'⟩ := hy
    { crystal := w.st.crystal + (exactly (-rfC rd) : Rounded rd) * (-(exactly 1)) * exactly 1,
      temp := w.st.temp + (exactly (-rfC rd) : Rounded rd) * exactly 1, pos := w.st.pos + exactly 1,
      time := w.st.time + exactly (rd (1 / rfV rd)), strain := exactly (rd (3 * rfV rd)) }
    (by dsimp only; rw [htemp]; linarith)
  obtain ⟨w', s1, s2, s3, s4, s5⟩ := singleStep_forward (rfG rd yld mass) w (exactly (rfV rd))
    (exactly (rd (rd (3 * rfV rd)))) (exactly 1) (exactly (1 / 4)) (exactly 1) (exactly 1) (exactly (-rfC rd)) w1
    (exactly 1) (exactly 500) (exactly (rfV rd)) (exactly (rd (rd (3 * rfV rd)))) tb
    (exactly (rd (Real.sin (1 / 4)))) (exactly (rd (1 / rfV rd))) (exactly (rd (3 * rfV rd))) false
    (by rw [I.terrain]; exact rf_velocity D yld w.st hTne ta ha ha0 ha1)
    (by rw [leB_false, rf_lit_zero D]; exact hvpos)
    hwidth (by rw [I.terrain]; rfl) hheat
    (by show Except.ok (if _ then _ else _) = _; split <;> rfl) hdt
    (by rw [leB_false]; show _ < val (w.st.crystal + (exactly (-rfC rd) : Rounded rd) * (-(exactly 1)) * exactly 1); rw [hphi]; exact hgrow)
    (rf_bulk D yld w1.st (by rw [f2]; exact hTne)) rfl
    (by rw [f1]; exact rf_velocity D yld w1.st (by rw [f2]; exact hTne) tb hb hb0 hb1)
    hb (by rw [f1]; exact rf_basal D yld _)
    (div_eq (by simpa using hvpos.ne') rfl)
    (by
      rw [I.terrain]
      refine div_eq (by show (1 : ℝ) ≠ 0; norm_num) ?_
      rw [val_mul, rf_lit_three D]
      show rd (rd (3 * rfV rd) / 1) = _
      rw [div_one, D.rounding.idem])
    (by
      unfold stopTest
      rw [if_neg]
      · have hnc : (rfLava rd yld).notCompatible
            { crystal := w.st.crystal + (exactly (-rfC rd) : Rounded rd) * (-(exactly 1)) * exactly 1,
              temp := w.st.temp + (exactly (-rfC rd) : Rounded rd) * exactly 1, pos := w.st.pos + exactly 1,
              time := w.st.time + exactly (rd (1 / rfV rd)), strain := exactly (rd (3 * rfV rd)) } = .ok false := by
          show (do let q ← PyNum.div (w.st.crystal + (exactly (-rfC rd) : Rounded rd) * (-(exactly 1)) * exactly 1) (exactly 1)
                   return ltB 1.0 q) = _
          rw [div_eq (z := rd (rd (val w.st.crystal + rfC rd))) (by simp) (by rw [hphi]; simp), ok_bind, pure_ok_iff]
          show decide (val (1.0 : Rounded rd) < rd (rd (val w.st.crystal + rfC rd))) = false
          rw [rf_lit_one D, D.rounding.idem, decide_eq_false_iff_not, not_lt]
          linarith
        have hyc : (rfLava rd yld).yieldNotCompatible w.terrain
            { crystal := w.st.crystal + (exactly (-rfC rd) : Rounded rd) * (-(exactly 1)) * exactly 1,
              temp := w.st.temp + (exactly (-rfC rd) : Rounded rd) * exactly 1, pos := w.st.pos + exactly 1,
              time := w.st.time + exactly (rd (1 / rfV rd)), strain := exactly (rd (3 * rfV rd)) } = .ok false := by
          unfold Lava.yieldNotCompatible
          have : (rfLava rd yld).yieldStrength
              { crystal := w.st.crystal + (exactly (-rfC rd) : Rounded rd) * (-(exactly 1)) * exactly 1,
                temp := w.st.temp + (exactly (-rfC rd) : Rounded rd) * exactly 1, pos := w.st.pos + exactly 1,
                time := w.st.time + exactly (rd (1 / rfV rd)), strain := exactly (rd (3 * rfV rd)) } = .ok t0 := ht0
          rw [this, ok_bind, I.terrain, rf_basal D, ok_bind, pure_ok_iff, leB_false, val_exactly]
          refine lt_of_le_of_lt ht0' (lt_of_lt_of_le ?_ ht.1)
          norm_num
        have g1 : (rfG rd yld mass).models.lava = rfLava rd yld := rfl
        rw [g1]
        erw [hnc, ok_bind, hyc, ok_bind]
        rw [if_neg (by decide), if_neg (by decide), pure_ok_iff, leB_false, I.terrain]
        show rd (val w.st.pos + 1) < 2 ^ 80
        exact lt_of_le_of_lt hpos (by norm_num)
      · rw [Bool.not_eq_true, leB_false]
        show (0 : ℝ) < val (w.st.temp + (exactly (-rfC rd) : Rounded rd) * exactly 1)
        rw [htemp]
        linarith)
  have hacc : AcceptedStep (rfG rd yld mass) w w' := ⟨I.unfinished, s1, s2⟩
  obtain ⟨A⟩ := roundStep hacc
  have hAv : A.v = exactly (rfV rd) := by
    have h := A.hv
    rw [I.terrain] at h
    have h2 := rf_velocity D yld w.st hTne ta ha ha0 ha1
    have : (rfG rd yld mass).models.lava = rfLava rd yld := rfl
    rw [this, h2, Except.ok.injEq, Prod.mk.injEq] at h
    exact h.1.symm
  refine ⟨w', hacc, ⟨?_, ?_, ?_, ?_, ?_, ?_, ?_, ?_, ?_, ?_⟩, A.pos⟩
  · rw [s4]; exact I.terrain
  · rw [s2, I.iter]
  · rw [s3, I.unfinished]; rfl
  · intro _; rw [A.eff, hAv, hE]
  · rw [A.flux, I.flux]
  · rw [s5]; exact hphi.symm ▸ hphi0
  · rw [s5]; push_cast; exact hphi.symm ▸ hphi1
  · rw [s5]; push_cast; exact htemp.symm ▸ htemp0
  · rw [s5]; exact htemp.symm ▸ htemp1
  · rw [A.pos]
    show rd (val w.st.pos + 1) ≤ _
    have h3 := D.dyadic (2 ^ 30 + ((i + 1 : ℕ) : ℤ)) 30 (by rw [abs_of_nonneg (by omega)]; omega) (by norm_num) (by norm_num)
    have h4 := D.rounding.mono (show val w.st.pos + 1 ≤ ((2 ^ 30 + ((i + 1 : ℕ) : ℤ) : ℤ) : ℝ) * (2 : ℝ) ^ (30 : ℤ) by
      have := I.pos
      push_cast
      norm_num at this ⊢
      linarith)
    rw [h3] at h4
    push_cast at h4 ⊢
    exact_mod_cast h4

/-- A yield strength that vanishes in practice. -/
noncomputable def rfYield (rd : ℝ → ℝ) : YieldModel (Rounded rd) := .dragoniAlone (exactly (-2 ^ 20))

theorem rf_yield {rd : ℝ → ℝ} (D : Decent rd) (s : FlowState (Rounded rd)) (hs : 0 ≤ val s.temp) :
    ∃ t0, (rfYield rd).strength s = .ok t0 ∧ 0 ≤ val t0 ∧ val t0 ≤ 1 / 2 ^ 100 := by
  refine ⟨_, rfl, ?_, ?_⟩
  · show 0 ≤ rd (val (0.01 : Rounded rd) * rd (Real.exp _))
    refine D.rounding.nonneg (mul_nonneg ?_ (D.rounding.nonneg (Real.exp_pos _).le))
    rw [val_lit]; exact D.rounding.nonneg (by norm_num)
  · show rd (val (0.01 : Rounded rd) * rd (Real.exp (rd (rd (val (0.08 : Rounded rd) * rd (-2 ^ 20 - val s.temp)) -
      val (1.0 : Rounded rd))))) ≤ _
    have h1 : rd (-2 ^ 20 - val s.temp) ≤ -2 ^ 20 := by
      have := D.le (-2 ^ 20) 0 (x := -2 ^ 20 - val s.temp) (by norm_num at hs ⊢; exact hs)
      norm_num at this ⊢
      exact this
    have h2 : 1 / 16 ≤ val (0.08 : Rounded rd) := by
      rw [val_lit]
      have := D.ge 1 4 (x := (0.08 : ℝ)) (by norm_num)
      norm_num at this ⊢
      exact this
    have h3 : rd (val (0.08 : Rounded rd) * rd (-2 ^ 20 - val s.temp)) ≤ -2 ^ 16 := by
      have := D.le (-2 ^ 16) 0 (x := val (0.08 : Rounded rd) * rd (-2 ^ 20 - val s.temp)) (by
        norm_num at h1 ⊢
        nlinarith)
      norm_num at this ⊢
      exact this
    have h4 : rd (rd (val (0.08 : Rounded rd) * rd (-2 ^ 20 - val s.temp)) - val (1.0 : Rounded rd)) ≤ -2 ^ 16 := by
      rw [rf_lit_one D]
      have := D.le (-2 ^ 16) 0 (x := rd (val (0.08 : Rounded rd) * rd (-2 ^ 20 - val s.temp)) - 1) (by
        norm_num at h3 ⊢
        linarith)
      norm_num at this ⊢
      exact this
    have h5 : Real.exp (rd (rd (val (0.08 : Rounded rd) * rd (-2 ^ 20 - val s.temp)) - val (1.0 : Rounded rd))) ≤ 1 / 2 ^ 100 := by
      refine le_trans (Real.exp_le_exp.mpr (h4.trans (show (-2 ^ 16 : ℝ) ≤ -(100 : ℕ) by norm_num))) ?_
      rw [Real.exp_neg, one_div]
      refine inv_anti₀ (by positivity) ?_
      rw [← Real.exp_one_pow]
      exact pow_le_pow_left₀ (by norm_num) (by linarith [Real.add_one_le_exp (1 : ℝ)]) _
    have h6 : rd (Real.exp (rd (rd (val (0.08 : Rounded rd) * rd (-2 ^ 20 - val s.temp)) - val (1.0 : Rounded rd)))) ≤ 1 / 2 ^ 100 := by
      have := D.le 1 100 (x := Real.exp (rd (rd (val (0.08 : Rounded rd) * rd (-2 ^ 20 - val s.temp)) - val (1.0 : Rounded rd)))) (by
        rw [Int.cast_one]; exact h5)
      rwa [Int.cast_one] at this
    have h7 : val (0.01 : Rounded rd) ≤ 1 := by
      rw [val_lit]
      have := D.le 1 0 (x := (0.01 : ℝ)) (by norm_num)
      simpa using this
    have h8 := D.rounding.nonneg (Real.exp_pos (rd (rd (val (0.08 : Rounded rd) * rd (-2 ^ 20 - val s.temp)) - val (1.0 : Rounded rd)))).le
    generalize rd (Real.exp (rd (rd (val (0.08 : Rounded rd) * rd (-2 ^ 20 - val s.temp)) - val (1.0 : Rounded rd)))) = q at h6 h8
    have := D.le 1 100 (x := val (0.01 : Rounded rd) * q) (by
      rw [Int.cast_one]
      nlinarith)
    rwa [Int.cast_one] at this

/-- The start of the example: at `x0`, 1000 K, no crystals, empty log. -/
noncomputable def rfWorld (rd : ℝ → ℝ) (x0 : ℝ) : World (Rounded rd) :=
  { newWorld (rfTerrain rd) { crystal := exactly 0, temp := exactly 1000, pos := exactly x0, time := exactly 0, strain := exactly 0 } [] with
    fluxRate := some (exactly (rfV rd)) }

theorem rf_inv {rd : ℝ → ℝ} (x0 : ℝ) (hx : x0 ≤ 2 ^ 60) : RfInv rd 0 (rfWorld rd x0) where
  terrain := rfl
  iter := rfl
  unfinished := rfl
  rate h := absurd rfl h
  flux := rfl
  phi0 := le_refl (0 : ℝ)
  phi1 := by show (0 : ℝ) ≤ _; simp
  temp0 := by show _ ≤ (1000 : ℝ); simp
  temp1 := le_refl (1000 : ℝ)
  pos := by show x0 ≤ _; norm_num at hx ⊢; exact hx

/-- A run of any length up to 1000 steps. -/
theorem rf_run {rd : ℝ → ℝ} (D : Decent rd) (mass : Bool) (x0 : ℝ) (hx : x0 ≤ 2 ^ 60) (k : Nat) (hk : k ≤ 1000) :
    ∃ ws, ws 0 = rfWorld rd x0 ∧ AcceptedRun (rfG rd (rfYield rd) mass) k ws ∧
      (∀ i, i ≤ k → RfInv rd i (ws i)) ∧ ∀ i, i < k → val (ws (i + 1)).st.pos = rd (val (ws i).st.pos + 1) := by
  induction k with
  | zero =>
    refine ⟨fun _ => rfWorld rd x0, rfl, fun i hi => by omega, fun i hi => ?_, fun i hi => by omega⟩
    rw [Nat.le_zero.mp hi]
    exact rf_inv x0 hx
  | succ k ih =>
    obtain ⟨ws, h0, h1, h2, h3⟩ := ih (by omega)
    obtain ⟨w', a, b, c⟩ := rf_step D (rfYield rd) mass k (by omega) (ws k) (h2 k le_rfl) (fun s hs => rf_yield D s hs)
    refine ⟨fun i => if i ≤ k then ws i else w', by simp [h0], fun i hi => ?_, fun i hi => ?_, fun i hi => ?_⟩
    · by_cases e : i = k
      · subst e; simpa using a
      · have := h1 i (by omega)
        simp only [show i ≤ k by omega, show i + 1 ≤ k by omega, if_true]
        exact this
    · by_cases e : i = k + 1
      · subst e; simpa using b
      · simp only [show i ≤ k by omega, if_true]; exact h2 i (by omega)
    · by_cases e : i = k
      · subst e; simpa using c
      · simp only [show i ≤ k by omega, show i + 1 ≤ k by omega, if_true]; exact h3 i (by omega)

end PyFlowGo
