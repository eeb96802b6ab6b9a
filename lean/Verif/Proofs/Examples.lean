import Verif.Proofs.Velocity
import Verif.Model.Integrator
/-
  Concrete objects used to show that hypotheses are satisfiable and to witness negative results.
-/
namespace PyFlowGo

/-- A vertical channel, 1 m deep and wide, gravity `g`. -/
noncomputable def exTerrain (g : ℝ) : Terrain ℝ :=
  { effusionRateInit := 0, depth := 1, width := 1, gravity := g, defaultSlope := Real.pi / 2,
    spline := none, maxLength := 100, smoothing := false, smoothingPoints := -1 }

/-- Lava of density 1 without vesicles, melt viscosity `mu` at 1000 K. -/
noncomputable def exLava (mu : ℝ) (rel : RelModel ℝ) (yld : YieldModel ℝ) : Lava ℝ :=
  { eruptionT := 1000, buffer := 0, latentHeat := 1, densityDre := 1, melt := .basic mu 1000,
    rel := rel, bub := .no, yld := yld, ves := .constant 0 }

/-- Lava parcel at 1000 K with crystal fraction `phi` and strain rate `x`. -/
noncomputable def exState (phi x : ℝ) : FlowState ℝ :=
  { crystal := phi, temp := 1000, pos := 0, time := 1, strain := x }

theorem exLava_density (mu : ℝ) (rel : RelModel ℝ) (yld : YieldModel ℝ) (s : FlowState ℝ) :
    (exLava mu rel yld).density s = 1 := by
  simp [Lava.density, Lava.vesicleFraction, exLava, VesicleModel.fraction]; norm_num

theorem exLava_basal (g mu : ℝ) (rel : RelModel ℝ) (yld : YieldModel ℝ) (s : FlowState ℝ) :
    (exLava mu rel yld).basalStress (exTerrain g) s = .ok g := by
  unfold Lava.basalStress
  rw [exLava_density]
  simp [Terrain.slope, exTerrain, pure_eq_ok]

theorem exLava_melt (mu phi x : ℝ) (rel : RelModel ℝ) (yld : YieldModel ℝ) :
    (exLava mu rel yld).melt.viscosity (exState phi x) = .ok mu := by
  simp [MeltModel.viscosity, exLava, exState]

theorem exLava_bulk (mu phi x r : ℝ) (rel : RelModel ℝ) (yld : YieldModel ℝ)
    (h : rel.relative (exState phi x) = .ok r) :
    (exLava mu rel yld).bulkViscosity (exState phi x) = .ok (mu * r) := by
  unfold Lava.bulkViscosity
  rw [exLava_melt]
  have : (exLava mu rel yld).rel = rel := rfl
  rw [this, h]
  simp [exLava, BubModel.relative, pure_eq_ok]; norm_num

/-- Einstein-Roscoe without crystals. -/
theorem er_zero (x : ℝ) : (RelModel.er : RelModel ℝ).relative (exState 0 x) = .ok 1 := by
  unfold RelModel.relative
  simp only [exState]
  rw [mpow_of_pos _ (by norm_num)]
  norm_num

/-- Ryerson without crystals. -/
theorem ryerson_zero (x : ℝ) : (YieldModel.ryerson : YieldModel ℝ).strength (exState 0 x) = .ok 0 := by
  unfold YieldModel.strength ryersonTerm
  simp only [exState]
  rw [pow_of_nonneg le_rfl (by norm_num), Real.zero_rpow (by norm_num)]
  simp [pure_eq_ok]

/-- Maron-Pierce with packing limit 2 at crystal fraction 1. -/
theorem mp_two (x : ℝ) : (RelModel.mp 2 : RelModel ℝ).relative (exState 1 x) = .ok 4 := by
  unfold RelModel.relative maronPierce
  simp only [exState]
  rw [div_of_ne (by norm_num), ok_bind, mpow_of_pos _ (by norm_num)]
  have : (1.0 - 1 / 2 : ℝ) ^ (-2.0 : ℝ) = 4 := by
    rw [show (1.0 - 1 / 2 : ℝ) = (2:ℝ)⁻¹ by norm_num, show (-2.0 : ℝ) = -((2 : ℕ) : ℝ) by norm_num,
      Real.rpow_neg (by norm_num), Real.rpow_natCast]
    norm_num
  rw [this]

theorem ryerson_one (x : ℝ) : (YieldModel.ryerson : YieldModel ℝ).strength (exState 1 x) = .ok 6500 := by
  unfold YieldModel.strength ryersonTerm
  simp only [exState]
  rw [pow_of_pos _ (by norm_num), Real.one_rpow]
  simp [pure_eq_ok]; norm_num

end PyFlowGo
