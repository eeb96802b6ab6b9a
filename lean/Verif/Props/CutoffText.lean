import Verif.Props.CutoffConfig
/-
  C96: an example on texts.
-/
set_option linter.unusedSectionVars false
namespace PyFlowGo
open Spec

theorem cut_milli (a b : String) : milliRound (cutNum 2 17 a b) = cutNum 2 17 a b := by
  unfold cutNum
  split
  · have := milli_int 2
    norm_num at this
    exact this
  · split
    · have := milli_int 17
      norm_num at this
      exact this
    · have := still_milli 3 a b
      rwa [show (((3 : ℕ) : ℝ)) = 3 by norm_num] at this

/-- **C96** on texts: the result file in a channel of 2 m is the beginning of that in a channel of 3 m. -/
theorem cut_text (windows : Bool) (folder : String) : ∃ file₁ file₂,
    runTextOn [1] 3 (milliFormat windows) "still.json" folder (milliDisk 3) =
      some (.ok (), (resultFileName folder "example" "1", file₁) :: milliDisk 3) ∧
    runTextOn [1] 3 (milliFormat windows) "still.json" folder
        [("still.json", jsonDump milliText (exConfigR (.int 1) (cutNum 2 17) stillChoice)), ("slope.txt", milliProfile)] =
      some (.ok (), [(resultFileName folder "example" "1", file₂),
        ("still.json", jsonDump milliText (exConfigR (.int 1) (cutNum 2 17) stillChoice)), ("slope.txt", milliProfile)]) ∧
    file₂ <+: file₁ := by
  obtain ⟨out, h⟩ := milli_run windows 3 (by norm_num) (by norm_num) folder
  have hcast : stillConfig 3 ((3 : ℕ) : ℝ) (.int 1) = stillConfig 3 3 (.int 1) := by norm_num
  have load : ∀ num : String → String → ℝ, (∀ a b, milliRound (num a b) = num a b) →
      JsonText (milliFormat windows).float (universal (jsonDump milliText (exConfigR (.int 1) num stillChoice))) (exConfigR (.int 1) num stillChoice) := by
    intro num hn
    have := C79_round_trip milliFloat milliText (exConfigR (.int 1) num stillChoice) (still_distinct _ _ _)
      (still_nums _ _ (fun a b => milli_readable _ (hn a b)) _ _) false
    simp only [stored, Bool.false_eq_true, if_false] at this
    exact (jsonLoads_iff _ _ _).mp this
  have N := still_number (textEnv (milliFormat windows) (milliDisk 3)) 3 3 (.int 1)
  have N' : ∀ e ∈ allReq, NumberAt (textEnv (milliFormat windows) (milliDisk 3)) (exConfigR (.int 1) (cutNum 2 17) stillChoice) e.1 e.2
      (cutNum 2 17 e.1 e.2) := fun e he => exConfig_number _ _ _ e he
  obtain ⟨hs1, hs2⟩ : SameButCut (textEnv (milliFormat windows) (milliDisk 3)) stillChoice (stillConfig 3 3 (.int 1))
      (exConfigR (.int 1) (cutNum 2 17) stillChoice) ∧ SameSwitch (stillConfig 3 3 (.int 1)) (exConfigR (.int 1) (cutNum 2 17) stillChoice) :=
    cut_same_in _ 2 17
  rcases C96_result_file_is_a_beginning (milliFormat windows) [1] 3 "still.json" folder (milliDisk 3)
    [("still.json", jsonDump milliText (exConfigR (.int 1) (cutNum 2 17) stillChoice)), ("slope.txt", milliProfile)]
    (jsonDump milliText (stillConfig 3 ((3 : ℕ) : ℝ) (.int 1))) (jsonDump milliText (exConfigR (.int 1) (cutNum 2 17) stillChoice))
    (stillConfig 3 3 (.int 1)) (exConfigR (.int 1) (cutNum 2 17) stillChoice)
    (by show lookup (milliDisk 3) "still.json" = _; unfold milliDisk; rw [lookup_cons_eq, if_pos rfl])
    (by show lookup _ "still.json" = _; rw [lookup_cons_eq, if_pos rfl])
    (by rw [hcast]; exact load _ (fun a b => by have := still_milli 3 a b; rwa [show (((3 : ℕ) : ℝ)) = 3 by norm_num] at this))
    (load _ cut_milli) (by
      intro path hm
      show (lookup (milliDisk 3) path).map dataLines = (lookup _ path).map dataLines
      unfold milliDisk
      by_cases e1 : "still.json" = path
      · subst e1
        exfalso
        have hs : ∀ v, TopEntry (stillConfig 3 3 (.int 1)) "slope_file" v → v = .str "slope.txt" :=
          fun v hv => topEntry_unique hv ⟨_, rfl, rfl⟩
        rcases hm with hm | ⟨hm, _⟩ | hm
        · exact absurd (Json.str.inj (hs _ hm)) (by decide)
        · cases hs _ hm
        · exact absurd hm (by decide)
      · rw [lookup_cons_eq, if_neg e1, lookup_cons_eq, lookup_cons_eq, if_neg e1, lookup_cons_eq])
    stillChoice (exConfig_selects _ _) hs1 hs2
    3 2 (N ("terrain_conditions", "max_channel_length") (by decide)) (N' ("terrain_conditions", "max_channel_length") (by decide)) (by norm_num)
    17 (N' ("lava_state", "time") (by decide)) (by rintro (h | h) <;> exact absurd h (by decide))
    0 (N ("lava_state", "position") (by decide)) (.num 1) ⟨_, rfl, rfl⟩ 1 rfl (by norm_num)
    2 ⟨⟨by norm_num, by norm_num⟩, by
      rintro j ⟨_, hj⟩
      have : (2 : ℝ) ≤ j := by linarith
      exact_mod_cast this⟩ _ h with ⟨h1, _⟩ | ⟨name, t, f1, f2, h1, h2, h3, _⟩
  · exact absurd (congrArg List.length h1) (by simp)
  · have h5 : (resultFileName folder "example" "1", out) = (name, f1) := (List.cons.inj h1).1
    obtain ⟨rfl, rfl⟩ := Prod.mk.inj h5
    exact ⟨_, f2, h, h2, h3⟩

end PyFlowGo
