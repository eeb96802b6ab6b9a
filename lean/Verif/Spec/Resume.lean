import Verif.Model.Run
import Verif.Model.RealNum
import Verif.Spec.Relevant
/-
  A flow taken up again at a row of its table.
-/
namespace PyFlowGo.Spec

/-- Crystals grow alike: the same rate in every state, solid at the same temperature. -/
structure SameGrowth (c c' : CrystModel ℝ) : Prop where
  rate : ∀ s, c'.rate s = c.rate s
  solid : c'.solidTemperature = c.solidTemperature

/-- The second eruption begins where the first one shows, at position `x`, a core temperature `T`, a crystal fraction `φ` and a channel of width `W` and
    depth `D`: its vent is there, its lava erupts like that into such a channel, and its effusion rate is left open (`effusion_rate_init` 0, so that it
    follows from width, depth and velocity). Everything else is the same; crystals grow at the same rate (whatever the initial fraction and temperature). -/
structure BeginsAt (pr pr' : Prepared ℝ) (x T φ W D : ℝ) : Prop where
  step : pr'.integrator.dx = pr.integrator.dx
  mass : pr'.integrator.massConservation = pr.integrator.massConservation
  models : ∃ T0 c, pr'.integrator.models = { pr.integrator.models with lava := { pr.integrator.models.lava with eruptionT := T0 }, cryst := c } ∧
    SameGrowth pr.integrator.models.cryst c
  terrain : pr'.world.terrain = { pr.world.terrain with width := W, depth := D, effusionRateInit := 0 }
  position : pr'.world.st.pos = x
  temperature : pr'.world.st.temp = T
  crystals : pr'.world.st.crystal = φ

/-- The entries that say where and how the lava leaves the vent: the place of the vent, width and depth of the channel, the crystals and the temperature of the
    lava, and the crystals it has still to grow. -/
def ventEntries : List Req :=
  [("lava_state", "position"), ("terrain_conditions", "width"), ("terrain_conditions", "depth"), ("lava_state", "crystal_fraction"),
   ("eruption_condition", "eruption_temperature"), ("crystals_parameters", "crystals_grown_during_cooling")]

/-- Two configurations that differ, if at all, in these entries and the effusion rate. -/
structure SameButVent (d d' : Json ℝ) : Prop where
  entry : ∀ sec key v, (sec, key) ∉ ventEntries → (EntryAt d sec key v ↔ EntryAt d' sec key v)
  top : ∀ k ∈ "melts_look-up_table" :: usedTop, k ≠ "effusion_rate_init" → ∀ v, TopEntry d k v ↔ TopEntry d' k v

/-- The second configuration begins where the first shows these numbers: they are its vent, its effusion rate is left open, and with the crystallisation model
    "basic" the crystals still to grow are in proportion to the temperature left until the lava is solid. -/
structure VentAt (env : Env ℝ) (d d' : Json ℝ) (x T φ W D : ℝ) : Prop where
  position : NumberAt env d' "lava_state" "position" x
  temperature : NumberAt env d' "eruption_condition" "eruption_temperature" T
  crystals : NumberAt env d' "lava_state" "crystal_fraction" φ
  width : NumberAt env d' "terrain_conditions" "width" W
  depth : NumberAt env d' "terrain_conditions" "depth" D
  rate : RateIs env d' 0
  basic : EntryAt d "models" "crystallization_rate_model" (.str "basic") → ∃ te ts g g', NumberAt env d "eruption_condition" "eruption_temperature" te ∧
    NumberAt env d "crystals_parameters" "solid_temperature" ts ∧ NumberAt env d "crystals_parameters" "crystals_grown_during_cooling" g ∧
    NumberAt env d' "crystals_parameters" "crystals_grown_during_cooling" g' ∧ te ≠ ts ∧ T ≠ ts ∧ g' / (T - ts) = g / (te - ts)

end PyFlowGo.Spec
