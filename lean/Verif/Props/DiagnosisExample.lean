import Verif.Props.Diagnosis
import Verif.Props.SweepFullExample
/-
  C115: concrete configurations.
-/
namespace PyFlowGo
open Spec

/-- The hypothesis on the fixed slope of the terrain constructor holds for real numbers. -/
theorem radians_example : ∃ s : ℝ, radians 2.657414 = .ok s := ⟨_, radians_real _⟩

/-- A complete configuration: nothing is reported. -/
example (env : Env ℝ) (g len : ℝ) (rate : Json ℝ) : diagnosis env (stillConfig g len rate) factoryItems = none :=
  (C115_factory env _).2.mp ⟨_, still_models env g len rate⟩

/-- A name with a capital letter: NameError. -/
example (env : Env ℝ) (rate : Json ℝ) (num : String → String → ℝ) :
    factory env (exConfigR rate num { stillChoice with cryst := "Basic" }) = .error .nameError :=
  ((C115_factory env _).1 _).mpr rfl

/-- Not an object at all: TypeError; empty: KeyError; only a rate: ValueError; an unreadable step size: ValueError. -/
example (env : Env ℝ) : diagnosis env (.arr []) runItems = some .typeError := rfl
example (env : Env ℝ) : diagnosis env (.obj []) runItems = some .keyError := rfl
example (env : Env ℝ) : diagnosis env (.obj [("effusion_rate_init", .int 0)]) runItems = some .valueError := rfl

/-- A section that is a text which happens to mention the key passes the first test and fails at the number. -/
example (env : Env ℝ) : presentError (α := ℝ) (.obj [("lava_state", .str "no critical_distance here")]) "lava_state" "critical_distance" = none ∧
    numberError env (.obj [("lava_state", .str "no critical_distance here")]) "lava_state" "critical_distance" = some .typeError := by
  have h : "critical_distance".toList <:+: "no critical_distance here".toList := ⟨"no ".toList, " here".toList, by simp⟩
  generalize "no critical_distance here" = t at *
  exact ⟨if_pos h, rfl⟩

/-- A run on an empty configuration. -/
example (grid : List ℝ) (fuel : ℕ) (env : Env ℝ) (folder : String) (p : Proc ℝ) (h : lookup p.json (env.canon "a.json") = some (.obj [])) :
    runOn grid fuel env "a.json" folder p = some (.error .keyError, p) :=
  (C115_run grid fuel env "a.json" folder p _ h radians_example _).1 rfl

/-- A run on the complete configuration with one name misspelt: NameError, after the slope profile. -/
example (grid : List ℝ) (fuel : ℕ) (env : Env ℝ) (hslope : env.slopeFile "slope.txt" = some [⟨0, 0, 0, 0, 90⟩, ⟨0, 0, 0, 2000, 90⟩])
    (folder : String) (p : Proc ℝ)
    (h : lookup p.json (env.canon "a.json") = some (exConfigR (.int 1) (stillNum 3 10) { stillChoice with cryst := "Basic" })) :
    runOn grid fuel env "a.json" folder p = some (.error .nameError, p) := by
  have hp := still_prepare env hslope 3 10 (.int 1) 1 (by simp [Json.toFloat, PyNum.ofInt]) []
  unfold prepare at hp
  obtain ⟨cfg, h1, hp⟩ := bind_ok_iff.mp hp
  obtain ⟨t0, h2, hp⟩ := bind_ok_iff.mp hp
  obtain ⟨t, h3, hp⟩ := bind_ok_iff.mp hp
  refine (C115_run grid fuel env "a.json" folder p _ h radians_example .nameError).2 cfg t0 t h1 h2 h3 ?_
  rfl

/-- The same configuration when the slope profile is missing: the misspelt name is not noticed. -/
example (env : Env ℝ) (hslope : env.slopeFile "slope.txt" = none) :
    prepare env (exConfigR (.int 1) (stillNum 3 10) { stillChoice with cryst := "Basic" }) [] = .error .fileNotFound := by
  unfold prepare
  cases h1 : readRunConfig env (exConfigR (.int 1) (stillNum 3 10) { stillChoice with cryst := "Basic" }) with
  | error e => cases h1
  | ok cfg =>
    rw [ok_bind]
    cases h2 : buildTerrain env (exConfigR (.int 1) (stillNum 3 10) { stillChoice with cryst := "Basic" }) with
    | error e =>
      have := run_err env (exConfigR (.int 1) (stillNum 3 10) { stillChoice with cryst := "Basic" }) radians_example
      rw [h1, ok_bind, h2] at this
      cases this
    | ok t =>
      rw [ok_bind]
      have hc : cfg.slopeFile = .str "slope.txt" := by
        cases h1
        rfl
      rw [hc]
      unfold loadSlope
      dsimp only
      rw [hslope]
      rfl

end PyFlowGo
