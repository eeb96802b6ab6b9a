import Verif.Spec.HeatSpec
/-
  What the flux classes write beside their own column: surface temperatures, emissivity, spectral radiance.
-/
namespace PyFlowGo.Spec

/-- Planck's law (hemispherical exitance) at 0.8675 micrometres with the constants of the code:
    h = 6.6256e-34, c = 2.9979e8, k = 1.38e-23. -/
noncomputable def planckLaw (T : ℝ) : ℝ :=
  2 * Real.pi * 6.6256e-34 * 2.9979e8 ^ 2 / 0.8675e-6 ^ 5 /
    (Real.exp (6.6256e-34 * 2.9979e8 / 1.38e-23 / (0.8675e-6 * T)) - 1)

/-- Radiance (per micrometre) of a square pixel of side `L` crossed by a channel of width `width` of which a fraction
    `f` is crust; the remainder of the pixel is snow at 258 K with emissivity 0.1; transmissivity 0.8. -/
noncomputable def pixelRadiance (L f Tc Tm eMolten eCrust width : ℝ) : ℝ :=
  0.8e-6 * (eMolten * ((1 - f) * width / L) * planckLaw Tm + eCrust * (f * width / L) * planckLaw Tc
    + (1 - width / L) * 0.1 * planckLaw 258)

/-- Pixel side and emissivities (molten, crust) used for the spectral radiance. -/
noncomputable def radianceSetup (Tc Tm : ℝ) : Flux ℝ → ℝ × ℝ × ℝ
  | .radBasic _ e => (30, e, e)
  | .radTwoEmi _ e1 e2 => (30, e2, e1)
  | .radCont _ => (0.1, quadraticEmissivity Tm, quadraticEmissivity Tc)
  | .radLin _ => (0.1, linearEmissivity Tm, linearEmissivity Tc)
  | _ => (30, 0, 0)

/-- The auxiliary columns a flux writes, with their values: `f` cover fraction, `Tc`, `Tm`, `Ta` crust, molten and air
    temperature. -/
noncomputable def auxColumns (f Tc Tm Ta width : ℝ) : Flux ℝ → List (String × ℝ)
  | .convection => [("characteristic_surface_temperature", convectiveTemperature f Tc Tm),
      ("effective_temperature_snyder", 0), ("flowgofluxsnyderheat", 0)]
  | .snyder => [("effective_temperature_snyder", mix f Tc Tm), ("characteristic_surface_temperature", 0),
      ("effective_radiation_temperature", 0), ("flowgofluxforcedconvectionheat", 0), ("flowgofluxradiationheat", 0)]
  | .conduction _ _ => []
  | .rain _ _ _ => []
  | .viscous => []
  | fl => [("effective_radiation_temperature", radiantExchange f Tc Tm Ta ^ (1 / 4 : ℝ)),
      ("epsilon_effective", ((emissivityOf f Tc Tm Ta fl).map Prod.snd).getD 0),
      ("spectral_radiance", pixelRadiance (radianceSetup Tc Tm fl).1 f Tc Tm (radianceSetup Tc Tm fl).2.1
        (radianceSetup Tc Tm fl).2.2 width)]

/-- The value written last under a name. -/
def lastWritten (l : List (String × ℝ)) (n : String) : Option ℝ := (l.reverse.find? fun e => e.1 == n).map Prod.snd

/-- Everything the flux list writes for one row, in order: for every flux its auxiliary columns, then its own. -/
noncomputable def fluxWrites (f Tc Tm Ta width : ℝ) (fs : List (Flux ℝ)) (qs : List ℝ) : List (String × ℝ) :=
  (fs.zip qs).flatMap fun p => auxColumns f Tc Tm Ta width p.1 ++ [(fluxColumn p.1, p.2)]

/-- The columns whose value the integrator writes (see `RowShown`). -/
def integratorColumns : List String :=
  ["position", "heat_budget", "channel_width", "crystal_fraction", "core_temperature", "strain_rate", "vesicle_fraction",
   "viscosity", "density", "mean_velocity", "crust_temperature", "effective_cover_fraction", "dphi_dx",
   "dtemp_dx", "dphi_dtemp", "dtemp_dt", "slope", "effusion_rate", "channel_depth", "tho_0", "tho_b"]

end PyFlowGo.Spec
