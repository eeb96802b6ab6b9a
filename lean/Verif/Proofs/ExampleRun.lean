import Verif.Proofs.StepForward
import Verif.Proofs.Examples
/-
  A concrete flow on which `single_step` is accepted without ending the run.
-/
namespace PyFlowGo
open Spec

/-- Heat budget made of rain alone. -/
theorem rain_budget (m : Models ℝ) (a b c width depth : ℝ) (w : World ℝ) (hm : m.fluxes = [.rain a b c]) :
    ∃ w1, heatBudget m width depth w = (.ok (a * b * c * width), w1) := by
  unfold heatBudget
  rw [hm]
  have h : (0.0 : ℝ) + a * b * c * width = a * b * c * width := by norm_num
  simp only [heatBudgetLoop, Flux.compute]
  refine ⟨(logNum "heat_budget" (0.0 + a * b * c * width)
    (logNum "flowgofluxheatlossrain" (a * b * c * width) w).2).2, ?_⟩
  refine Eq.trans (b := ((Except.ok (0.0 + a * b * c * width) : Except Err ℝ), _)) rfl ?_
  rw [h]
  rfl

noncomputable def exModels : Models ℝ :=
  { lava := exLava 1 .er .ryerson
    air := { temp := 300, windSpeed := 1, ch := 1, rho := 1, cp := 1 }
    crust := .constant 500
    cover := .basic 0 1
    cryst := .basic 0 1 0 1000
    fluxes := [.rain (1 / 100) 1 1] }

noncomputable def exIntegrator (mass : Bool) : Integrator ℝ :=
  { dx := 1, models := exModels, massConservation := mass }

noncomputable def exWorld : World ℝ :=
  { newWorld (exTerrain 3) (exState 0 0) [] with fluxRate := some 1 }

theorem exVelocity (x : ℝ) :
    (exLava 1 .er .ryerson).meanVelocity (exTerrain 3) (exState 0 x) = .ok (1, 3) := by
  rw [meanVelocity_ok_iff]
  refine ⟨0, 3, 1, ryerson_zero x, exLava_basal 3 1 .er .ryerson _, ?_, by norm_num, by norm_num,
    by norm_num [exTerrain], ?_, by norm_num [exTerrain]⟩
  · rw [exLava_bulk 1 0 x 1 .er .ryerson (er_zero x)]; norm_num
  · norm_num [binghamVelocity, exTerrain]

/-- Ryerson yield strength at 1% crystals is below 3 Pa. -/
theorem ryerson_small (s : FlowState ℝ) (h : s.crystal = 1 / 100) :
    ∃ t0, (YieldModel.ryerson : YieldModel ℝ).strength s = .ok t0 ∧ 0 ≤ t0 ∧ t0 < 3 := by
  refine ⟨6500 * (1 / 100 : ℝ) ^ (2.85 : ℝ), ?_, by positivity, ?_⟩
  · unfold YieldModel.strength ryersonTerm
    rw [h, pow_of_pos _ (by norm_num), ok_bind, pure_ok_iff]; norm_num
  · have : (1 / 100 : ℝ) ^ (2.85 : ℝ) ≤ (1 / 100 : ℝ) ^ (2 : ℝ) :=
      Real.rpow_le_rpow_of_exponent_ge (by norm_num) (by norm_num) (by norm_num)
    rw [show (2 : ℝ) = ((2 : ℕ) : ℝ) by norm_num, Real.rpow_natCast] at this
    norm_num at this ⊢
    linarith

/-- The first step of the example flow is accepted and does not end the run, with mass conservation
    on or off. -/
theorem ex_accepted (mass : Bool) :
    ∃ w', AcceptedStep (exIntegrator mass) exWorld w' ∧ w'.finished = false ∧
      w'.st.crystal = 1 / 100 ∧ w'.st.temp = 990 ∧ w'.terrain = exTerrain 3 := by
  have hE : exWorld.stepEffusion 1 = 1 := by
    norm_num [exWorld, World.stepEffusion, newWorld, exTerrain]
  have hrho : exModels.lava.density exWorld.st = 1 := exLava_density 1 .er .ryerson _
  obtain ⟨w1, hheat⟩ := rain_budget exModels (1 / 100) 1 1 1 exWorld.terrain.depth
    { exWorld with st := { exWorld.st with strain := 3 }, effusionRate := exWorld.stepEffusion 1 } rfl
  obtain ⟨y, es0, ht, _, _⟩ := heatBudget_ok hheat
  have f1 : w1.terrain = exTerrain 3 := by rw [ht]; rfl
  have f2 : w1.st = exState 0 y := by rw [ht]; rfl
  have hphi : (0 : ℝ) + -10 * (-(1 / 1000)) * 1 = 1 / 100 := by norm_num
  obtain ⟨t0, hy, hy0, hy3⟩ := ryerson_small
    { crystal := 0 + -10 * (-(1 / 1000)) * 1, temp := 1000 + -10 * 1, pos := 0 + 1, time := 1 + 1 / 1,
      strain := 3 } hphi
  obtain ⟨w', h1, h2, h3, h4, h5⟩ := singleStep_forward (exIntegrator mass) exWorld 1 3 1 (Real.pi / 2) (1 / 100 * 1 * 1 * 1)
    (1 / 1000) (-10) w1 1 500 1 3 0 3 (1 / 1) 3 false (exVelocity 0)
    (by rw [Bool.eq_false_iff]; simp only [ne_eq, leB_real]; norm_num)
    (by
      rw [hE]
      show channelWidth mass 1 (some 1) 1 1 (exModels.lava.density exWorld.st) = .ok 1
      rw [hrho]
      cases mass
      · simp only [channelWidth, Bool.false_eq_true, if_false]
        rw [div_of_ne (by norm_num)]; norm_num
      · simp only [channelWidth, if_true]
        rw [div_of_ne (by norm_num), ok_bind, div_of_ne (by norm_num)]; norm_num)
    rfl hheat
    (by
      show PyNum.div (1 : ℝ) (1000 - 0) = _
      rw [div_of_ne (by norm_num)]; norm_num)
    (by
      rw [hE]
      show PyNum.div _ (1 * exModels.lava.density exWorld.st * 1 * (1 / 1000)) = _
      rw [hrho, div_of_ne (by norm_num)]; norm_num)
    (by
      rw [Bool.eq_false_iff]; simp only [ne_eq, leB_real]
      show ¬ ((0 : ℝ) + -10 * (-(1 / 1000)) * 1 ≤ 0)
      norm_num)
    (by
      rw [f2]
      show (exLava 1 .er .ryerson).bulkViscosity (exState 0 y) = _
      rw [exLava_bulk 1 0 y 1 .er .ryerson (er_zero y)]; norm_num)
    rfl (by rw [f1, f2]; exact exVelocity y) (by rw [f2]; exact ryerson_zero y)
    (by rw [f1]; exact exLava_basal 3 1 .er .ryerson _)
    (by show PyNum.div (1 : ℝ) 1 = _; rw [div_of_ne (by norm_num)])
    (by show PyNum.div (3.0 * 1 : ℝ) 1 = _; rw [div_of_ne (by norm_num)]; norm_num)
    (by
      show stopTest (exIntegrator mass) (exTerrain 3)
        { crystal := (0 : ℝ) + -10 * (-(1 / 1000)) * 1, temp := 1000 + -10 * 1, pos := 0 + 1,
          time := 1 + 1 / 1, strain := 3 } = .ok false
      unfold stopTest
      rw [if_neg]
      · have hnc : (exIntegrator mass).models.lava.notCompatible
          { crystal := (0 : ℝ) + -10 * (-(1 / 1000)) * 1, temp := 1000 + -10 * 1, pos := 0 + 1,
            time := 1 + 1 / 1, strain := 3 } = .ok false := by
          show (RelModel.er : RelModel ℝ).notCompatible _ = _
          unfold RelModel.notCompatible
          rw [div_of_ne (by norm_num), ok_bind, pure_ok_iff, Bool.eq_false_iff]
          simp only [ne_eq, leB_real]
          norm_num
        rw [hnc, ok_bind]
        simp only [Bool.false_eq_true, if_false]
        have hyc : (exIntegrator mass).models.lava.yieldNotCompatible (exTerrain 3)
          { crystal := (0 : ℝ) + -10 * (-(1 / 1000)) * 1, temp := 1000 + -10 * 1, pos := 0 + 1,
            time := 1 + 1 / 1, strain := 3 } = .ok false := by
          show (exLava 1 .er .ryerson).yieldNotCompatible (exTerrain 3) _ = _
          unfold Lava.yieldNotCompatible
          have : (exLava 1 .er .ryerson).yieldStrength
            { crystal := (0 : ℝ) + -10 * (-(1 / 1000)) * 1, temp := 1000 + -10 * 1, pos := 0 + 1,
              time := 1 + 1 / 1, strain := 3 } = .ok t0 := hy
          rw [this, ok_bind, exLava_basal, ok_bind, pure_ok_iff, Bool.eq_false_iff]
          simpa only [ne_eq, leB_real, not_le] using hy3
        rw [hyc, ok_bind]
        simp only [Bool.false_eq_true, if_false, pure_ok_iff]
        rw [Bool.eq_false_iff]
        simp only [ne_eq, leB_real, exTerrain]
        norm_num
      · simp only [leB_real]
        show ¬ ((1000 : ℝ) + -10 * 1 ≤ 0)
        norm_num)
  refine ⟨w', ⟨rfl, h1, h2⟩, by rw [h3]; rfl, ?_, ?_, h4⟩
  · rw [h5]; exact hphi
  · rw [h5]
    show (1000 : ℝ) + -10 * 1 = 990
    norm_num

end PyFlowGo
