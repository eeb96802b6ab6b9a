import Verif.Spec.Everyday
/-
  Words for comparing two lavas that differ in their rheology only.
-/
namespace PyFlowGo.Spec

/-- The same set-up with other rheological models: melt viscosity, crystals, bubbles, yield strength. Density, vesicles, latent heat, crust, air, crystallisation and heat fluxes stay. -/
def withRheology (g : Integrator ℝ) (melt : MeltModel ℝ) (rel : RelModel ℝ) (bub : BubModel ℝ) (yld : YieldModel ℝ) : Integrator ℝ :=
  { g with models := { g.models with lava := { g.models.lava with melt := melt, rel := rel, bub := bub, yld := yld } } }

/-- The same set-up with another dense-rock density, another latent heat and other rheological models. Vesicles, crust, air, crystallisation and heat fluxes stay. -/
def withMaterial (g : Integrator ℝ) (dre lat : ℝ) (melt : MeltModel ℝ) (rel : RelModel ℝ) (bub : BubModel ℝ) (yld : YieldModel ℝ) : Integrator ℝ :=
  { g with models := { g.models with lava := { g.models.lava with densityDre := dre, latentHeat := lat, melt := melt, rel := rel, bub := bub, yld := yld } } }

/-- The same set-up with another dense-rock density and another latent heat of crystallisation; everything else stays. -/
def withDensityAndHeat (g : Integrator ℝ) (dre lat : ℝ) : Integrator ℝ :=
  { g with models := { g.models with lava := { g.models.lava with densityDre := dre, latentHeat := lat } } }

/-- The lava `l` is not thicker than `l'`: downstream of `x0` and above the solidus, wherever the crystals leave `l'` room to flow they leave `l` room to flow, and there the bulk viscosity
    of `l` is not larger than that of `l'`; and the yield strength of `l` is not larger. -/
structure NotThicker (solidus x0 : ℝ) (l l' : Lava ℝ) : Prop where
  room : ∀ s : FlowState ℝ, x0 ≤ s.pos → 0 ≤ s.crystal → solidus < s.temp → l'.notCompatible s = .ok false → ¬ AtPacking s l'.rel →
    l.notCompatible s = .ok false ∧ ¬ AtPacking s l.rel
  viscosity : ∀ (s : FlowState ℝ) (mu mu' : ℝ), x0 ≤ s.pos → 0 ≤ s.crystal → solidus < s.temp → l'.notCompatible s = .ok false → ¬ AtPacking s l'.rel →
    l.bulkViscosity s = .ok mu → l'.bulkViscosity s = .ok mu' → mu ≤ mu'
  strength : ∀ (s : FlowState ℝ) (t t' : ℝ), x0 ≤ s.pos → 0 ≤ s.crystal → solidus < s.temp → l.yieldStrength s = .ok t → l'.yieldStrength s = .ok t' → t ≤ t'

/-- A place where a flow that starts at `vent` can have a row of its table: the vent, or downstream of it and before the end of the channel. -/
def OnTheWay (vent : ℝ) (T : Terrain ℝ) (x : ℝ) : Prop := x = vent ∨ (vent ≤ x ∧ x < T.maxLength)

/-- The ground of `T` is not less steep than that of `T'`, from the vent to the end of the channel of `T'`: the same channel depth, the end of the channel not nearer, and wherever the ground
    of `T'` falls away, gravity times the sine of the slope not smaller. The widths may differ. -/
structure Steeper (vent : ℝ) (T T' : Terrain ℝ) : Prop where
  depth : T'.depth = T.depth
  length : T'.maxLength ≤ T.maxLength
  pull : ∀ x y y', OnTheWay vent T' x → T.slope x = .ok y → T'.slope x = .ok y' → 0 < T'.gravity * Real.sin y' → T'.gravity * Real.sin y' ≤ T.gravity * Real.sin y

end PyFlowGo.Spec
