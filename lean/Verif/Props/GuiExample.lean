import Verif.Props.Gui
import Verif.Props.SweepFullExample
/-
  C77 on complete runs.
-/
namespace PyFlowGo
open Spec

/-- **C77**: pressing "single" on a flow of three steps shows its figures. -/
example : ∃ p' profile c, guiSingle [1] 3 exEnv "still.json" "out"
      { json := [("still.json", stillConfig 3 (3 : ℕ) (.int 1))], results := [], log := [] } =
        some (.ok (.single profile [c]), p') ∧ p'.results.length = 1 := by
  obtain ⟨log, t, hne, hw, hpl, _, hrun⟩ := still_run 3 (by norm_num) le_rfl 1 (Or.inr rfl) (fun _ x => x)
  obtain ⟨c, hc⟩ := hpl.mpr le_rfl
  have hr := hrun "still.json" "out" { json := [("still.json", stillConfig 3 (3 : ℕ) (.int 1))], results := [], log := [] } rfl
  refine ⟨{ json := [("still.json", stillConfig 3 (3 : ℕ) (.int 1))], results := [(resultFileName "out" "example" (toString (1 : Int)), t)], log := log },
    exLines, c, ?_, rfl⟩
  unfold guiSingle
  rw [hr]
  have h0 : ("still.json".isEmpty || "out".isEmpty) = false := by decide
  rw [h0]
  simp only [Bool.false_eq_true, if_false]
  have hn : getFileNameResults exEnv "out" "still.json"
      { json := [("still.json", stillConfig 3 (3 : ℕ) (.int 1))], results := [(resultFileName "out" "example" (toString (1 : Int)), t)], log := log } =
      .ok (resultFileName "out" "example" (toString (1 : Int))) := rfl
  rw [hn]
  dsimp only
  have hp : plotAll exEnv
      { json := [("still.json", stillConfig 3 (3 : ℕ) (.int 1))], results := [(resultFileName "out" "example" (toString (1 : Int)), t)], log := log }
      [resultFileName "out" "example" (toString (1 : Int))] "still.json" = .ok (exLines, [c]) := by
    have h1 : plotLoop (fun name => lookup [(resultFileName "out" "example" (toString (1 : Int)), t)] (exEnv.canon name)) false
        [resultFileName "out" "example" (toString (1 : Int))] = .ok [c] := by
      have hl : lookup [(resultFileName "out" "example" (toString (1 : Int)), t)]
          (exEnv.canon (resultFileName "out" "example" (toString (1 : Int)))) = some t := by
        rw [lookup_cons]; exact if_pos rfl
      unfold plotLoop
      dsimp only
      rw [hl]
      dsimp only
      rw [hc]
      rfl
    show (plotLoop (fun name => lookup [(resultFileName "out" "example" (toString (1 : Int)), t)] (exEnv.canon name)) false
        [resultFileName "out" "example" (toString (1 : Int))] >>= fun cs => pure (exLines, cs)) = _
    rw [h1]
    rfl
  rw [hp]

/-- An environment in which `"5.9"` and `"-0.5"` are numbers. -/
noncomputable def numEnv : Env ℝ :=
  { exEnv with parseFloat := fun s => if s = "5.9" then some (59 / 10) else if s = "-0.5" then some (-1 / 2) else none }

/-- **C77**: "5.9" is taken as 5. -/
example (grid : List ℝ) (fuel : Nat) (round : Nat → ℝ → ℝ) (p : Proc ℝ) (rate : Json ℝ) (g len : ℝ)
    (hp : lookup p.json "still.json" = some (stillConfig g len rate)) :
    guiSweep grid fuel round numEnv "still.json" "out" "5.9" "5.9" "5.9" p =
      (sweepFull grid fuel round numEnv "still.json" "out" "slope.txt" 5 5 5 p).map fun o =>
        (match o.1 with | .error e => .error e | .ok _ => .ok (.sweep o.2.2), o.2.1) :=
  C77_sweep_of_whole_numbers grid fuel round numEnv "still.json" "out" "5.9" "5.9" "5.9" "slope.txt" (59 / 10) (59 / 10) (59 / 10)
    _ p (by decide) (by decide) (by simp [numEnv]) (by simp [numEnv]) (by simp [numEnv]) hp rfl 5 5 5
    (by norm_num [abs_of_pos]) (by norm_num [abs_of_pos]) (by norm_num [abs_of_pos])

/-- **C77**: a step of "-0.5" ends the sweep before it starts. -/
example (grid : List ℝ) (fuel : Nat) (round : Nat → ℝ → ℝ) (p : Proc ℝ) (rate : Json ℝ) (g len : ℝ)
    (hp : lookup p.json "still.json" = some (stillConfig g len rate)) :
    guiSweep grid fuel round numEnv "still.json" "out" "5.9" "5.9" "-0.5" p = some (.error .valueError, p) :=
  C77_fractional_step grid fuel round numEnv "still.json" "out" "5.9" "5.9" "-0.5" (59 / 10) (59 / 10) (-1 / 2)
    _ p (by decide) (by decide) (by simp [numEnv]) (by simp [numEnv]) (by simp [numEnv]) hp (by rw [abs_lt]; norm_num)

end PyFlowGo
