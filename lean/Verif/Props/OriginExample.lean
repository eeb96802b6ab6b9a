import Verif.Props.Origin
import Verif.Props.SupplyExample
/-
  C98: an example meeting the hypotheses.
-/
set_option linter.unusedSectionVars false
namespace PyFlowGo
open Spec

/-- The numbers of the still example with positions measured from another origin. -/
noncomputable def originNum (δ : ℝ) (s k : String) : ℝ :=
  if k = "max_channel_length" ∨ k = "position" ∨ k = "critical_distance" then stillNum 3 3 s k + δ else stillNum 3 3 s k

theorem origin_same (env : Env ℝ) (δ : ℝ) (r : Int) :
    SameButOrigin δ env stillChoice (stillConfig 3 3 (.int r)) (exConfigR (.int r) (originNum δ) stillChoice) ∧
    SameSwitch (stillConfig 3 3 (.int r)) (exConfigR (.int r) (originNum δ) stillChoice) := by
  have hu : ∀ e ∈ allReq, e ∈ usedEntries stillChoice → e ∉ originEntries → stillNum 3 3 e.1 e.2 = originNum δ e.1 e.2 := by
    intro e ha _ hn
    have h1 : ¬ (e.2 = "max_channel_length" ∨ e.2 = "position" ∨ e.2 = "critical_distance") := by
      revert ha hn
      revert e
      decide
    unfold originNum
    rw [if_neg h1]
  obtain ⟨⟨h1, h2, h3, h4, h5⟩, h6⟩ := exConfig_entries originEntries env (.int r) (stillNum 3 3) (originNum δ) stillChoice [] []
    (fun _ _ => rfl) (fun _ _ => rfl) (by unfold originNum; rw [if_neg (by decide)]) hu _ _ rfl rfl
  refine ⟨⟨h1, fun e he ho x => ?_, h2, h3, fun h => absurd h (by decide), fun h => absurd h (by decide)⟩, h6 rfl⟩
  have ha : e ∈ allReq := by
    revert he ho
    revert e
    decide
  have hk : e.2 = "max_channel_length" ∨ e.2 = "position" ∨ e.2 = "critical_distance" := by
    revert ho
    revert e
    decide
  have N := still_number env 3 3 (.int r) e ha
  have N' := exConfig_number (extra := []) (rate := .int r) env (originNum δ) stillChoice e ha
  have e1 : originNum δ e.1 e.2 = stillNum 3 3 e.1 e.2 + δ := by unfold originNum; rw [if_pos hk]
  rw [e1] at N'
  constructor
  · intro h
    rw [number_unique h N]
    exact N'
  · intro h
    have := number_unique h N'
    rw [add_left_inj] at this
    rw [this]
    exact N

/-- **C98**: the three rows of the still example, 100 m further. -/
theorem origin_example : ∃ log t, log.length = 3 ∧ writeValues log = .ok (some t) ∧
    runOn [1] 3 exEnv "still.json" "out" ⟨[("still.json", stillConfig 3 3 (.int 1))], [], []⟩ =
      some (.ok (), ⟨[("still.json", stillConfig 3 3 (.int 1))], [(resultFileName "out" "example" (toString (1 : Int)), t)], log⟩) ∧
    runOn [1] 3 (exEnv.moved 100) "still.json" "out" ⟨[("still.json", exConfigR (.int 1) (originNum 100) stillChoice)], [], []⟩ =
      some (.ok (), ⟨[("still.json", exConfigR (.int 1) (originNum 100) stillChoice)],
        [(resultFileName "out" "example" (toString (1 : Int)), t.moved 100)], log.moved 100⟩) := by
  obtain ⟨log, t, hlen, hw, hrun⟩ := still_one
  refine ⟨log, t, hlen, hw, hrun, ?_⟩
  obtain ⟨hs1, hs2⟩ := origin_same exEnv 100 1
  rcases C98_origin_has_no_effect 100 [1] 3 exEnv "still.json" "out" ⟨[("still.json", stillConfig 3 3 (.int 1))], [], []⟩
    ⟨[("still.json", exConfigR (.int 1) (originNum 100) stillChoice)], [], []⟩ (stillConfig 3 3 (.int 1))
    (exConfigR (.int 1) (originNum 100) stillChoice) (by show lookup [_] "still.json" = _; rw [lookup_cons_eq, if_pos rfl])
    (by show lookup [_] "still.json" = _; rw [lookup_cons_eq, if_pos rfl]) rfl stillChoice (exConfig_selects _ _) hs1 hs2 (.inl rfl)
    with ⟨e, e', h, _⟩ | ⟨h, _⟩ | ⟨o, l, wr, h1, h2⟩
  · rw [hrun] at h; cases h
  · rw [hrun] at h; cases h
  · rw [hrun] at h1
    have e := Option.some.inj h1
    rw [h2, ← (Prod.mk.inj e).1]
    have e2 := (Prod.mk.inj e).2
    have e3 := congrArg Proc.log e2
    have e4 := congrArg Proc.results e2
    dsimp only at e3 e4
    rw [List.append_nil] at e4
    rw [← e3, ← e4]
    rfl

example : ∃ log t, log.length = 3 ∧ writeValues log = .ok (some t) ∧
    runOn [1] 3 (exEnv.moved 100) "still.json" "out" ⟨[("still.json", exConfigR (.int 1) (originNum 100) stillChoice)], [], []⟩ =
      some (.ok (), ⟨[("still.json", exConfigR (.int 1) (originNum 100) stillChoice)],
        [(resultFileName "out" "example" (toString (1 : Int)), CsvTable.moved 100 t)], log.moved 100⟩) := by
  obtain ⟨log, t, h1, h2, _, h3⟩ := origin_example
  exact ⟨log, t, h1, h2, h3⟩

/-- A vesicle law in the coordinate: the fraction 0.5 at the vent is 0.49 when the vent is at 100 m. -/
example : (VesicleModel.variable (0.5 : ℝ) 0.0001).fraction { crystal := 0, temp := 1000, pos := (0 : ℝ) + 100, time := 0, strain := 0 } ≠
    (VesicleModel.variable 0.5 0.0001).fraction { crystal := 0, temp := 1000, pos := (0 : ℝ), time := 0, strain := 0 } :=
  C98_variable_vesicles_see_the_origin 0.5 0.0001 100 { crystal := 0, temp := 1000, pos := (0 : ℝ), time := 0, strain := 0 } (by norm_num)
    (by norm_num) (by norm_num)

end PyFlowGo
