import Verif.Model.RealNum
import Verif.Model.Run
import Verif.Spec.RunText
/-
  C141: models with two regimes that differ only in the second regime.
-/
namespace PyFlowGo
namespace Spec

/-- Crust temperatures that are the same, or both `bimodal` with their second regime (and its temperature) beyond `D`. -/
def CrustUpTo (D : ℝ) (c c' : CrustModel ℝ) : Prop := c' = c ∨
  ∃ d d' t2 t2', D ≤ d ∧ D ≤ d' ∧ c = .honBimodal d t2 ∧ c' = .honBimodal d' t2'

/-- Crust covers that are the same, or both `bimodal` with the same first regime and the second one beyond `D`. -/
def CoverUpTo (D : ℝ) (c c' : CoverModel ℝ) : Prop := c' = c ∨
  ∃ d d' a1 a2 a2' f1 f2 f2', D ≤ d ∧ D ≤ d' ∧ c = .bimodal d a1 a2 f1 f2 ∧ c' = .bimodal d' a1 a2' f1 f2'

/-- Crystallisation rates that are the same, or both `bimodal` with the same first regime and the second one beyond `D`. -/
def CrystUpTo (D : ℝ) (c c' : CrystModel ℝ) : Prop := c' = c ∨
  ∃ d d' f r1 r2 r2' ts, D ≤ d ∧ D ≤ d' ∧ c = .bimodal f d r1 r2 ts ∧ c' = .bimodal f d' r1 r2' ts

/-- The models of `m` and `m'` are the same up to the place `D`. -/
structure ModelsUpTo (D : ℝ) (m m' : Models ℝ) : Prop where
  lava : m'.lava = m.lava
  air : m'.air = m.air
  fluxes : m'.fluxes = m.fluxes
  crust : CrustUpTo D m.crust m'.crust
  cover : CoverUpTo D m.cover m'.cover
  cryst : CrystUpTo D m.cryst m'.cryst

/-- The entries for the second regime (crust temperature, crust cover, crystallisation rate). -/
def secondRegime : List (String × String) :=
  [("thermal_parameters", "alpha_2"), ("thermal_parameters", "crust_cover_fraction_2"), ("thermal_parameters", "crust_temperature_2"),
   ("crystals_parameters", "crystallization_rate_2")]

/-- The configurations `d` and `d'` agree in every entry but those for the second regime; where such an entry is a number in `d`, it is one in `d'`. -/
structure OtherSecondRegime (env : Env ℝ) (d d' : Json ℝ) : Prop where
  top : ∀ k, k ≠ "thermal_parameters" → k ≠ "crystals_parameters" → ∀ x, TopEntry d k x ↔ TopEntry d' k x
  sections : ∀ s, s = "thermal_parameters" ∨ s = "crystals_parameters" → (∃ l, TopEntry d s (.obj l)) ∧ (∃ l, TopEntry d' s (.obj l)) ∧
    ∀ k, (s, k) ∉ secondRegime → ∀ x, EntryAt d s k x ↔ EntryAt d' s k x
  numbers : ∀ e ∈ secondRegime, ∀ x, NumberAt env d e.1 e.2 x → ∃ x', NumberAt env d' e.1 e.2 x'

end Spec
end PyFlowGo
