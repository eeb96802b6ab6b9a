import Verif.Props.SecondRegime
import Verif.Props.OneRegimeExample
import Verif.Props.AheadExample
/-
  C141: a complete run meeting the hypotheses.
-/
set_option linter.unusedSectionVars false
namespace PyFlowGo
open Spec

/-- The numbers of the still example with the critical distance at its end and the value `v` in every entry of the second regime of cover, crust and rate. -/
noncomputable def farNum (v : Option ℝ) (s k : String) : ℝ :=
  if k = "critical_distance" then 3
  else if k = "alpha_2" ∨ k = "crust_cover_fraction_2" ∨ k = "crust_temperature_2" ∨ k = "crystallization_rate_2" then v.getD (regimeNum s k)
  else regimeNum s k

theorem far_none (s k : String) (h : k ≠ "critical_distance") : farNum none s k = regimeNum s k := by
  unfold farNum
  rw [if_neg h]
  split <;> rfl

theorem far_same (env : Env ℝ) : SameEntries env stillChoice (stillConfig 3 3 (.int 1)) (exConfigR (.int 1) (farNum none) stillChoice) ∧
    SameSwitch (stillConfig 3 3 (.int 1)) (exConfigR (.int 1) (farNum none) stillChoice) := by
  have hno : ∀ e ∈ allReq, e ∈ usedEntries stillChoice → ¬ (e.2 = "alpha_1" ∨ e.2 = "alpha_2" ∨ e.2 = "vesicle_fraction_1" ∨ e.2 = "vesicle_fraction_2" ∨ e.2 = "vesicle_coef" ∨ e.2 = "vesicle_poly_a" ∨ e.2 = "vesicle_poly_b") ∧
      ¬ (e.2 = "crystallization_rate_1" ∨ e.2 = "crystallization_rate_2") ∧ e.2 ≠ "critical_distance" := by decide
  have hh : ∀ e ∈ allReq, e ∈ usedEntries stillChoice → stillNum 3 3 e.1 e.2 = farNum none e.1 e.2 := by
    intro e ha hu
    obtain ⟨h1, h2, h3⟩ := hno e ha hu
    rw [far_none _ _ h3]
    unfold regimeNum
    rw [if_neg h1, if_neg h2]
  have := exConfig_same env (.int 1) (stillNum 3 3) (farNum none) stillChoice [] [] (fun _ _ => rfl) (fun _ _ => rfl)
    (by rw [far_none _ _ (by decide)]; unfold regimeNum; rw [if_neg (by simp), if_neg (by simp)]) hh
  exact ⟨this.1, this.2 rfl⟩

/-- Crust cover and crystallisation with two regimes. -/
def choiceFar : Choice := { choice1 with cryst := "bimodal" }

theorem far_chain (env : Env ℝ) : SameLawModels env (exConfigR (.int 1) (farNum none) stillChoice) (exConfigR (.int 1) (farNum none) choiceFar) := by
  have N : ∀ c : Choice, ∀ e ∈ allReq, NumberAt env (exConfigR (.int 1) (farNum none) c) e.1 e.2 (farNum none e.1 e.2) := fun c => exConfig_number env (farNum none) c
  have v1 : ∀ s k, k = "alpha_1" ∨ k = "alpha_2" → farNum none s k = 0 := by
    intro s k hk
    rw [far_none _ _ (by rcases hk with rfl | rfl <;> decide)]
    unfold regimeNum
    rw [if_pos (by rcases hk with h | h <;> simp [h])]
  have v2 : ∀ s k, k = "crystallization_rate_1" ∨ k = "crystallization_rate_2" → farNum none s k = 1 / 1000 := by
    intro s k hk
    rw [far_none _ _ (by rcases hk with rfl | rfl <;> decide)]
    unfold regimeNum; rw [if_neg, if_pos hk]
    rcases hk with rfl | rfl <;> decide
  have v3 : ∀ s, farNum none s "alpha" = 0 ∧ farNum none s "crust_cover_fraction" = 1 ∧ farNum none s "crust_cover_fraction_2" = 1 ∧
      farNum none s "crystals_grown_during_cooling" = 1 ∧ farNum none s "solid_temperature" = 0 ∧ farNum none s "eruption_temperature" = 1000 := by
    intro s
    refine ⟨?_, ?_, ?_, ?_, ?_, ?_⟩ <;> rw [far_none _ _ (by decide)] <;> simp [regimeNum, stillNum]
  have at_ : ∀ (c : Choice) (s k : String) (x : ℝ), (s, k) ∈ allReq → farNum none s k = x → NumberAt env (exConfigR (.int 1) (farNum none) c) s k x := by
    intro c s k x h e
    rw [← e]
    exact N c (s, k) h
  refine .step (d' := exConfigR (.int 1) (farNum none) choice1) ⟨"basic", "bimodal", .inl ⟨ex_switched _ _ _ _ _ _ _ rfl (fun k hk x => ?_) ⟨_, _, rfl, rfl, rfl⟩ ⟨_, _, rfl, rfl, rfl⟩,
    0, 1, .inl ⟨rfl, at_ _ _ _ _ (by decide) (v3 _).1, at_ _ _ _ _ (by decide) (v3 _).2.1⟩,
    .inr ⟨rfl, ⟨_, at_ _ _ _ _ (by decide) rfl⟩, at_ _ _ _ _ (by decide) (v1 _ _ (by decide)), at_ _ _ _ _ (by decide) (v1 _ _ (by decide)),
      at_ _ _ _ _ (by decide) (v3 _).2.1, at_ _ _ _ _ (by decide) (v3 _).2.2.1⟩⟩⟩ ?_
  · rw [entry_models, entry_models]
    simp only [lookup_cons_eq]
    simp [Ne.symm hk, choice1]
  refine .step (d' := exConfigR (.int 1) (farNum none) choiceFar) ⟨"basic", "bimodal", .inr (.inl ⟨ex_switched _ _ _ _ _ _ _ rfl (fun k hk x => ?_) ⟨_, _, rfl, rfl, rfl⟩ ⟨_, _, rfl, rfl, rfl⟩,
    1 / 1000, .inl ⟨rfl, 1, 0, 1000, at_ _ _ _ _ (by decide) (v3 _).2.2.2.1, at_ _ _ _ _ (by decide) (v3 _).2.2.2.2.1, at_ _ _ _ _ (by decide) (v3 _).2.2.2.2.2, ?_⟩,
    .inr (.inl ⟨rfl, ⟨_, at_ _ _ _ _ (by decide) rfl⟩, at_ _ _ _ _ (by decide) (v2 _ _ (by decide)), at_ _ _ _ _ (by decide) (v2 _ _ (by decide))⟩),
    ⟨_, at_ _ _ _ _ (by decide) rfl⟩, ⟨_, at_ _ _ _ _ (by decide) rfl⟩, ⟨_, at_ _ _ _ _ (by decide) rfl⟩⟩)⟩ (.refl _)
  · rw [entry_models, entry_models]
    simp only [lookup_cons_eq]
    simp [Ne.symm hk, choice1, choiceFar]
  · rw [sub_zero]
    exact div_of_ne (by norm_num)

theorem exSection_lookup (num num' : String → String → ℝ) (s k : String) (h : num s k = num' s k) : lookup (exSection num s) k = lookup (exSection num' s) k := by
  unfold exSection
  induction allReq with
  | nil => rfl
  | cons e l ih =>
    rw [List.filter_cons]
    split
    · rw [List.map_cons, List.map_cons, lookup_cons_eq, lookup_cons_eq]
      by_cases hk : e.2 = k
      · have hs : e.1 = s := by rename_i hs; simpa using hs
        rw [if_pos hk, if_pos hk, hk, hs, h]
      · rw [if_neg hk, if_neg hk, ih]
    · exact ih

theorem far_agree (v v' : Option ℝ) (s k : String) (h : k ≠ "alpha_2" ∧ k ≠ "crust_cover_fraction_2" ∧ k ≠ "crust_temperature_2" ∧ k ≠ "crystallization_rate_2") :
    farNum v s k = farNum v' s k := by
  have : ¬ (k = "alpha_2" ∨ k = "crust_cover_fraction_2" ∨ k = "crust_temperature_2" ∨ k = "crystallization_rate_2") := by
    simp only [not_or]; exact h
  unfold farNum
  rw [if_neg this, if_neg this]

theorem far_section (v v' : Option ℝ) (s : String) (h : ∀ e ∈ allReq, e.1 = s → e.2 ≠ "alpha_2" ∧ e.2 ≠ "crust_cover_fraction_2" ∧ e.2 ≠ "crust_temperature_2" ∧ e.2 ≠ "crystallization_rate_2") :
    exSection (farNum v) s = exSection (farNum v') s := by
  unfold exSection
  apply List.map_congr_left
  intro e he
  rw [List.mem_filter] at he
  rw [far_agree v v' e.1 e.2 (h e he.1 (by simpa using he.2))]

theorem far_other (env : Env ℝ) (c : Choice) (v v' : Option ℝ) : OtherSecondRegime env (exConfigR (.int 1) (farNum v) c) (exConfigR (.int 1) (farNum v') c) := by
  have s1 := far_section v v' "lava_state" (by decide)
  have s2 := far_section v v' "eruption_condition" (by decide)
  have s3 := far_section v v' "melt_viscosity_parameters" (by decide)
  have s4 := far_section v v' "relative_viscosity_parameters" (by decide)
  have s5 := far_section v v' "convection_parameters" (by decide)
  have s6 := far_section v v' "radiation_parameters" (by decide)
  have s7 := far_section v v' "conduction_parameters" (by decide)
  have s8 := far_section v v' "rain_parameters" (by decide)
  have s9 := far_section v v' "terrain_conditions" (by decide)
  have s10 := far_agree v v' "" "step_size" (by decide)
  refine ⟨fun k h1 h2 x => ?_, fun s hs => ?_, fun e he x _ => ?_⟩
  · rw [exConfigR, exConfigR, exConfigM, exConfigM, topEntry_obj, topEntry_obj, s1, s2, s3, s4, s5, s6, s7, s8, s9, s10]
    simp only [lookup_cons_eq]
    simp [Ne.symm h1, Ne.symm h2]
  · rcases hs with rfl | rfl
    · refine ⟨⟨_, _, rfl, rfl⟩, ⟨_, _, rfl, rfl⟩, fun k hk x => ?_⟩
      have ha : lookup (("crust_temperature_file", .str "crust.txt") :: exSection (farNum v) "thermal_parameters") k =
          lookup (("crust_temperature_file", .str "crust.txt") :: exSection (farNum v') "thermal_parameters") k := by
        rw [lookup_cons_eq, lookup_cons_eq]
        by_cases hr : k = "crystallization_rate_2"
        · subst hr; rfl
        · rw [exSection_lookup _ _ _ _ (far_agree v v' _ k ⟨fun e => hk (by rw [e]; decide), fun e => hk (by rw [e]; decide), fun e => hk (by rw [e]; decide), hr⟩)]
      constructor
      · rintro ⟨top, inner, e1, e2, e3⟩
        cases e1; cases e2
        exact ⟨_, _, rfl, rfl, by rw [← ha]; exact e3⟩
      · rintro ⟨top, inner, e1, e2, e3⟩
        cases e1; cases e2
        exact ⟨_, _, rfl, rfl, by rw [ha]; exact e3⟩
    · refine ⟨⟨_, _, rfl, rfl⟩, ⟨_, _, rfl, rfl⟩, fun k hk x => ?_⟩
      have ha : lookup (exSection (farNum v) "crystals_parameters") k = lookup (exSection (farNum v') "crystals_parameters") k := by
        by_cases hr : k = "alpha_2"
        · subst hr; rfl
        by_cases hr2 : k = "crust_cover_fraction_2"
        · subst hr2; rfl
        by_cases hr3 : k = "crust_temperature_2"
        · subst hr3; rfl
        rw [exSection_lookup _ _ _ _ (far_agree v v' _ k ⟨hr, hr2, hr3, fun e => hk (by rw [e]; decide)⟩)]
      constructor
      · rintro ⟨top, inner, e1, e2, e3⟩
        cases e1; cases e2
        exact ⟨_, _, rfl, rfl, by rw [← ha]; exact e3⟩
      · rintro ⟨top, inner, e1, e2, e3⟩
        cases e1; cases e2
        exact ⟨_, _, rfl, rfl, by rw [ha]; exact e3⟩
  · exact ⟨_, exConfig_number env (farNum v') c e ((by decide : ∀ e ∈ secondRegime, e ∈ allReq) e he)⟩

theorem ex_step (num : String → String → ℝ) (c : Choice) : TopEntry (exConfigR (.int 1) num c) "step_size" (.num (num "" "step_size")) := ⟨_, rfl, rfl⟩

theorem far_not (num : String → String → ℝ) : ¬ EntryAt (exConfigR (.int 1) num choiceFar) "models" "crystallization_rate_model" (.str "bimodal_f_temp") := by
  rw [entry_models, lookup_cons_eq, if_pos rfl]
  simp [choiceFar]

theorem far_lookup (d : Json ℝ) : lookup [("still.json", d)] "still.json" = some d := by rw [lookup_cons_eq, if_pos rfl]

/-- The run with equal regimes. -/
theorem far_base : ∃ log t, log.length = 3 ∧ writeValues log = .ok (some t) ∧ (∀ row ∈ log, ∀ x : ℝ, row.get? "position" = some (.num x) → x + 1 ≤ 3) ∧
    runOn [1] 3 exEnv "still.json" "out" (newRunner ⟨[("still.json", exConfigR (.int 1) (farNum none) stillChoice)], [], []⟩) =
      some (.ok (), ⟨[("still.json", exConfigR (.int 1) (farNum none) stillChoice)], [(resultFileName "out" "example" (toString (1 : Int)), t)], log⟩) := by
  obtain ⟨log, t, ⟨hlen, _, cells, hc1, hc2⟩, _, hw, _, _, hrun⟩ := still_run_all exEnv rfl rfl 3 (by omega) (by omega) 1 (.inr rfl) (fun _ x => x)
  have r0 := hrun "still.json" "out" ⟨[("still.json", stillConfig 3 (3 : ℕ) (.int 1))], [], []⟩ (far_lookup _)
  have hcast : stillConfig 3 ((3 : ℕ) : ℝ) (.int 1) = stillConfig 3 3 (.int 1) := by norm_num
  rw [hcast] at r0
  obtain ⟨hs1, hs2⟩ := far_same exEnv
  refine ⟨log, t, hlen, hw, ?_, ?_⟩
  · intro row hrow x hx
    have hm : row.get? "position" ∈ log.getValues "position" := List.mem_map_of_mem (f := fun r : Row (Cell ℝ) => r.get? "position") hrow
    rw [hc1, hx] at hm
    obtain ⟨c, hc, he⟩ := List.mem_map.mp hm
    have : x ∈ (List.range 3).map (fun i : ℕ => (i : ℝ)) := by
      rw [hc2]
      refine List.mem_map.mpr ⟨c, hc, ?_⟩
      cases he
      rfl
    obtain ⟨i, hi, rfl⟩ := List.mem_map.mp this
    have : ((i + 1 : ℕ) : ℝ) ≤ 3 := by exact_mod_cast (List.mem_range.mp hi)
    push_cast at this
    exact this
  · rcases C94_unused_entries_are_irrelevant [1] 3 exEnv "still.json" "out"
      (newRunner ⟨[("still.json", stillConfig 3 3 (.int 1))], [], []⟩)
      (newRunner ⟨[("still.json", exConfigR (.int 1) (farNum none) stillChoice)], [], []⟩)
      (stillConfig 3 3 (.int 1)) (exConfigR (.int 1) (farNum none) stillChoice) (far_lookup _) (far_lookup _) rfl rfl stillChoice
      (exConfig_selects _ _) hs1 hs2 with ⟨e, e', r1, r2⟩ | ⟨r1, r2⟩ | ⟨r, l, results, r1, r2⟩
    · rw [r0] at r1; cases r1
    · rw [r0] at r1; cases r1
    · rw [r0] at r1
      cases r1
      exact r2

/-- The run with two models in two regimes, still equal. -/
theorem far_two : ∃ log t, log.length = 3 ∧ writeValues log = .ok (some t) ∧ (∀ row ∈ log, ∀ x : ℝ, row.get? "position" = some (.num x) → x + 1 ≤ 3) ∧
    runOn [1] 3 exEnv "still.json" "out" (newRunner ⟨[("still.json", exConfigR (.int 1) (farNum none) choiceFar)], [], []⟩) =
      some (.ok (), ⟨[("still.json", exConfigR (.int 1) (farNum none) choiceFar)], [(resultFileName "out" "example" (toString (1 : Int)), t)], log⟩) := by
  obtain ⟨log, t, h1, h2, h3, base⟩ := far_base
  refine ⟨log, t, h1, h2, h3, ?_⟩
  rw [C140_models [1] 3 exEnv "still.json" "still.json" "out" (newRunner ⟨[("still.json", exConfigR (.int 1) (farNum none) stillChoice)], [], []⟩)
    (newRunner ⟨[("still.json", exConfigR (.int 1) (farNum none) choiceFar)], [], []⟩) _ _ (far_lookup _) (far_lookup _) rfl rfl (far_chain exEnv), base]
  rfl

/-- **C141**, non-vacuity: a complete run of three rows with crust cover and crystallisation in two regimes, up to the critical distance; it is the same
    for every value `v` in the entries of the second regime. -/
theorem far_example (v : ℝ) : ∃ log t, log.length = 3 ∧ writeValues log = .ok (some t) ∧
    runOn [1] 3 exEnv "still.json" "out" (newRunner ⟨[("still.json", exConfigR (.int 1) (farNum none) choiceFar)], [], []⟩) =
      some (.ok (), ⟨[("still.json", exConfigR (.int 1) (farNum none) choiceFar)], [(resultFileName "out" "example" (toString (1 : Int)), t)], log⟩) ∧
    runOn [1] 3 exEnv "still.json" "out" (newRunner ⟨[("still.json", exConfigR (.int 1) (farNum (some v)) choiceFar)], [], []⟩) =
      some (.ok (), ⟨[("still.json", exConfigR (.int 1) (farNum (some v)) choiceFar)], [(resultFileName "out" "example" (toString (1 : Int)), t)], log⟩) := by
  obtain ⟨log, t, hlen, hw, hX, two⟩ := far_two
  have N : ∀ e ∈ allReq, NumberAt exEnv (exConfigR (.int 1) (farNum none) choiceFar) e.1 e.2 (farNum none e.1 e.2) := exConfig_number exEnv (farNum none) choiceFar
  have n1 := N ("lava_state", "critical_distance") (by decide)
  have n2 := N ("lava_state", "position") (by decide)
  have st := ex_step (farNum none) choiceFar
  have f0 := far_not (farNum none)
  dsimp only at n1 n2
  rw [show farNum none "lava_state" "critical_distance" = 3 from if_pos rfl] at n1
  rw [show farNum none "lava_state" "position" = 0 by rw [far_none _ _ (by decide)]; simp [regimeNum, stillNum]] at n2
  rw [show farNum none "" "step_size" = 1 by rw [far_none _ _ (by decide)]; simp [regimeNum, stillNum]] at st
  have ot := far_other exEnv choiceFar none (some v)
  generalize exConfigR (.int 1) (farNum none) choiceFar = d at *
  generalize exConfigR (.int 1) (farNum (some v)) choiceFar = d' at *
  refine ⟨log, t, hlen, hw, ?_⟩
  have e := C141_second_regime [1] 3 exEnv "still.json" "still.json" "out" (newRunner ⟨[("still.json", d)], [], []⟩) (newRunner ⟨[("still.json", d')], [], []⟩) _ d d'
    (far_lookup _) (far_lookup _) rfl rfl rfl ot f0 two 3 n1 0 n2 (by norm_num) (.num 1) st 1 rfl one_pos hX
  exact ⟨two, e⟩

/-- For instance 17 and -5. -/
example := far_example 17
example := far_example (-5)

end PyFlowGo
