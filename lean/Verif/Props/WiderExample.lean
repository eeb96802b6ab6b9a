import Verif.Props.Wider
import Verif.Props.SupplyExample
/-
  C105: an example meeting the hypotheses.
-/
set_option linter.unusedSectionVars false
namespace PyFlowGo
open Spec

/-- The numbers of the still example with another width. -/
noncomputable def widthNum (x : ℝ) (s k : String) : ℝ := if k = "width" then x * stillNum 3 3 s k else stillNum 3 3 s k

/-- Twice the width and twice the rate. -/
theorem width_same (env : Env ℝ) :
    SameButWidth 2 env stillChoice (stillConfig 3 3 (.int 1)) (exConfigR (.int 2) (widthNum 2) stillChoice) ∧
    SameSwitch (stillConfig 3 3 (.int 1)) (exConfigR (.int 2) (widthNum 2) stillChoice) := by
  have hu : ∀ e ∈ allReq, e ∈ usedEntries stillChoice → e ∉ [("terrain_conditions", "width")] → stillNum 3 3 e.1 e.2 = widthNum 2 e.1 e.2 := by
    intro e ha _ hn
    have h1 : e.2 ≠ "width" := by
      revert ha hn
      revert e
      decide
    unfold widthNum
    rw [if_neg h1]
  obtain ⟨⟨h1, h2, h3, h4, h5⟩, h6⟩ := exConfig_entries [("terrain_conditions", "width")] env (.int 2) (stillNum 3 3) (widthNum 2) stillChoice [] []
    (fun _ _ => rfl) (fun _ _ => rfl) (by unfold widthNum; rw [if_neg (by decide)]) hu _ _ rfl rfl
  have hsec : ∀ e ∈ usedEntries stillChoice ++ idleNumbers stillChoice, e.1 ≠ "effusion_rate_init" := by decide
  have N := still_number env 3 3 (.int 1) ("terrain_conditions", "width") (by decide)
  have N' := exConfig_number (extra := []) (rate := .int 2) env (widthNum 2) stillChoice ("terrain_conditions", "width") (by decide)
  have e1 : widthNum 2 "terrain_conditions" "width" = 2 * stillNum 3 3 "terrain_conditions" "width" := by unfold widthNum; rw [if_pos rfl]
  dsimp only at N N'
  rw [e1] at N'
  have R : RateIs env (stillConfig 3 3 (.int 1)) ((1 : Int) : ℝ) := ⟨_, ⟨_, rfl, rfl⟩, rfl⟩
  have R' : RateIs env (exConfigR (.int 2) (widthNum 2) stillChoice) ((2 : Int) : ℝ) := ⟨_, ⟨_, rfl, rfl⟩, rfl⟩
  refine ⟨⟨fun e he hn v => ?_, fun x => ⟨fun h => ?_, fun h => ?_⟩, fun r => ⟨fun h => ?_, fun h => ?_⟩, fun k hk hn v => ?_, fun e he => ?_,
    fun h => absurd h (by decide), fun h => absurd h (by decide)⟩, fun v => ?_⟩
  · exact (rate_entry [] (.int 1) (.int 2) _ _ _ _ (hsec e (List.mem_append_left _ he)) v).trans (h1 e he (by simpa using hn) v)
  · rw [number_unique h N]; exact N'
  · have := number_unique h N'
    rw [mul_right_inj' (by norm_num)] at this
    rw [this]
    exact N
  · rw [rate_unique h R]
    norm_num at R' ⊢
    exact R'
  · have := rate_unique h R'
    have e : r = ((1 : Int) : ℝ) := by norm_num at this ⊢; linarith
    rw [e]
    exact R
  · exact (rate_top [] (.int 1) (.int 2) _ _ _ hn v).trans (h2 k hk v)
  · refine Iff.trans ?_ (h3 e he)
    exact exists_congr fun x => exists_congr fun v =>
      and_congr_left fun _ => rate_entry [] (.int 1) (.int 2) _ _ _ _ (hsec e (List.mem_append_right _ he)) v
  · exact (rate_entry [] (.int 1) (.int 2) _ _ _ _ (by decide) v).trans (h6 rfl v)

/-- **C105**: the three rows of the still example in a channel twice as wide. -/
theorem wider_example : ∃ log t, log.length = 3 ∧ writeValues log = .ok (some t) ∧
    runOn [1] 3 exEnv "still.json" "out" ⟨[("still.json", stillConfig 3 3 (.int 1))], [], []⟩ =
      some (.ok (), ⟨[("still.json", stillConfig 3 3 (.int 1))], [(resultFileName "out" "example" (toString (1 : Int)), t)], log⟩) ∧
    runOn [1] 3 exEnv "still.json" "out" ⟨[("still.json", exConfigR (.int 2) (widthNum 2) stillChoice)], [], []⟩ =
      some (.ok (), ⟨[("still.json", exConfigR (.int 2) (widthNum 2) stillChoice)],
        [(resultFileName "out" "example" (toString (2 : Int)), t.widened 2)], log.widened 2⟩) := by
  obtain ⟨log, t, hlen, hw, hrun⟩ := still_one
  refine ⟨log, t, hlen, hw, hrun, ?_⟩
  obtain ⟨hs1, hs2⟩ := width_same exEnv
  rcases C105_wider_channel 2 (by norm_num) [1] 3 exEnv "still.json" "out" ⟨[("still.json", stillConfig 3 3 (.int 1))], [], []⟩
    ⟨[("still.json", exConfigR (.int 2) (widthNum 2) stillChoice)], [], []⟩ (stillConfig 3 3 (.int 1))
    (exConfigR (.int 2) (widthNum 2) stillChoice) (by show lookup [_] "still.json" = _; rw [lookup_cons_eq, if_pos rfl])
    (by show lookup [_] "still.json" = _; rw [lookup_cons_eq, if_pos rfl]) rfl stillChoice (exConfig_selects _ _) hs1 hs2
    with ⟨e, e', h, _⟩ | ⟨h, _⟩ | ⟨o, l, fs, fs', h1, h2, h3⟩
  · rw [hrun] at h; cases h
  · rw [hrun] at h; cases h
  · rw [hrun] at h1
    have e := Option.some.inj h1
    rw [h2, ← (Prod.mk.inj e).1]
    have e2 := (Prod.mk.inj e).2
    have e3 := congrArg Proc.log e2
    have e4 := congrArg Proc.results e2
    dsimp only at e3 e4
    subst e3
    rcases h3 with ⟨f1, _⟩ | ⟨t', lava, v, v', g1, g2, g3, g4, g5, g6⟩
    · rw [f1] at e4; cases e4
    · rw [hw] at g4
      obtain rfl : t = t' := Option.some.inj (Except.ok.inj g4)
      have ev : v' = .int 2 := topEntry_unique g3 ⟨_, rfl, rfl⟩
      have el : lava = .str "example" := topEntry_unique g1 ⟨_, rfl, rfl⟩
      rw [g6, ev, el]
      rfl

example : ∃ log t, log.length = 3 ∧ writeValues log = .ok (some t) ∧
    runOn [1] 3 exEnv "still.json" "out" ⟨[("still.json", exConfigR (.int 2) (widthNum 2) stillChoice)], [], []⟩ =
      some (.ok (), ⟨[("still.json", exConfigR (.int 2) (widthNum 2) stillChoice)],
        [(resultFileName "out" "example" (toString (2 : Int)), t.widened 2)], log.widened 2⟩) := by
  obtain ⟨log, t, h1, h2, _, h3⟩ := wider_example
  exact ⟨log, t, h1, h2, h3⟩

end PyFlowGo
