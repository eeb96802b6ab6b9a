import Verif.Props.OneRegime
import Verif.Props.RelevantText
/-
  C140 on an example: the complete run of C59 with three of its models exchanged.
-/
set_option linter.unusedSectionVars false
set_option linter.unusedSimpArgs false
namespace PyFlowGo
open Spec

/-- The numbers of the still example; the entries of the models with two regimes are those of its one regime. -/
noncomputable def regimeNum (s k : String) : ℝ :=
  if k = "alpha_1" ∨ k = "alpha_2" ∨ k = "vesicle_fraction_1" ∨ k = "vesicle_fraction_2" ∨ k = "vesicle_coef" ∨ k = "vesicle_poly_a" ∨ k = "vesicle_poly_b" then 0
  else if k = "crystallization_rate_1" ∨ k = "crystallization_rate_2" then 1 / 1000
  else stillNum 3 3 s k

theorem regime_same (env : Env ℝ) : SameEntries env stillChoice (stillConfig 3 3 (.int 1)) (exConfigR (.int 1) regimeNum stillChoice) ∧
    SameSwitch (stillConfig 3 3 (.int 1)) (exConfigR (.int 1) regimeNum stillChoice) := by
  suffices hh : ∀ e ∈ allReq, e ∈ usedEntries stillChoice → stillNum 3 3 e.1 e.2 = regimeNum e.1 e.2 by
    have := exConfig_same env (.int 1) (stillNum 3 3) regimeNum stillChoice [] [] (fun _ _ => rfl) (fun _ _ => rfl)
      (by unfold regimeNum; rw [if_neg (by simp), if_neg (by simp)]) hh
    exact ⟨this.1, this.2 rfl⟩
  have hno : ∀ e ∈ allReq, e ∈ usedEntries stillChoice → ¬ (e.2 = "alpha_1" ∨ e.2 = "alpha_2" ∨ e.2 = "vesicle_fraction_1" ∨ e.2 = "vesicle_fraction_2" ∨ e.2 = "vesicle_coef" ∨ e.2 = "vesicle_poly_a" ∨ e.2 = "vesicle_poly_b") ∧
      ¬ (e.2 = "crystallization_rate_1" ∨ e.2 = "crystallization_rate_2") := by decide
  intro e ha hu
  obtain ⟨h1, h2⟩ := hno e ha hu
  unfold regimeNum
  rw [if_neg h1, if_neg h2]

/-- Two example configurations with one name apart. -/
theorem ex_switched (num : String → String → ℝ) (rate : Json ℝ) (c c' : Choice) (key a b : String)
    (hh : [c.radiation, c.snyder, c.conduction, c.convection, c.rain, c.viscous] = [c'.radiation, c'.snyder, c'.conduction, c'.convection, c'.rain, c'.viscous])
    (hm : ∀ k, k ≠ key → ∀ x, EntryAt (exConfigR rate num c) "models" k x ↔ EntryAt (exConfigR rate num c') "models" k x)
    (h1 : EntryAt (exConfigR rate num c) "models" key (.str a)) (h2 : EntryAt (exConfigR rate num c') "models" key (.str b)) :
    Switched (exConfigR rate num c) (exConfigR rate num c') key a b := by
  refine ⟨fun k hk x => ?_, hm, h1, h2⟩
  obtain ⟨c1, c2, c3, c4, c5, c6, c7, c8, c9, c10, c11, c12, c13, c14⟩ := c
  obtain ⟨e1, e2, e3, e4, e5, e6, e7, e8, e9, e10, e11, e12, e13, e14⟩ := c'
  simp only [List.cons.injEq, and_true] at hh
  obtain ⟨rfl, rfl, rfl, rfl, rfl, rfl⟩ := hh
  unfold exConfigR exConfigM TopEntry
  simp only [Json.obj.injEq, exists_eq_left', lookup_cons_eq]
  simp [Ne.symm hk, lookup_cons_eq]

/-- The models of the still example, exchanged one after the other. -/
def choice1 : Choice := { stillChoice with cover := "bimodal" }
def choice2 : Choice := { choice1 with cryst := "bimodal_f_temp" }
def choice3 : Choice := { choice2 with ves := "bimodal" }

theorem entry_models (num : String → String → ℝ) (rate : Json ℝ) (c : Choice) (k : String) (x : Json ℝ) :
    EntryAt (exConfigR rate num c) "models" k x ↔ lookup [("crystallization_rate_model", .str c.cryst), ("melt_viscosity_model", .str c.melt),
       ("relative_viscosity_model", .str c.rel), ("relative_viscosity_bubbles_model", .str c.bub),
       ("yield_strength_model", .str c.yld), ("crust_temperature_model", .str c.crust),
       ("effective_cover_crust_model", .str c.cover), ("vesicle_fraction_model", .str c.ves)] k = some x := by
  constructor
  · rintro ⟨top, inner, e1, e2, e3⟩
    cases e1
    cases e2
    exact e3
  · intro h
    exact ⟨_, _, rfl, rfl, h⟩

theorem regime_chain (env : Env ℝ) : SameLawModels env (exConfigR (.int 1) regimeNum stillChoice) (exConfigR (.int 1) regimeNum choice3) := by
  have N : ∀ c : Choice, ∀ e ∈ allReq, NumberAt env (exConfigR (.int 1) regimeNum c) e.1 e.2 (regimeNum e.1 e.2) := fun c => exConfig_number env regimeNum c
  have v1 : ∀ s k, k = "alpha_1" ∨ k = "alpha_2" ∨ k = "vesicle_fraction_1" ∨ k = "vesicle_fraction_2" ∨ k = "vesicle_coef" ∨ k = "vesicle_poly_a" ∨ k = "vesicle_poly_b" → regimeNum s k = 0 := by
    intro s k hk; unfold regimeNum; rw [if_pos hk]
  have v2 : ∀ s k, k = "crystallization_rate_1" ∨ k = "crystallization_rate_2" → regimeNum s k = 1 / 1000 := by
    intro s k hk; unfold regimeNum; rw [if_neg, if_pos hk]
    rcases hk with rfl | rfl <;> decide
  have v3 : ∀ s, regimeNum s "alpha" = 0 ∧ regimeNum s "crust_cover_fraction" = 1 ∧ regimeNum s "crust_cover_fraction_2" = 1 ∧ regimeNum s "vesicle_fraction" = 0 ∧
      regimeNum s "crystals_grown_during_cooling" = 1 ∧ regimeNum s "solid_temperature" = 0 ∧ regimeNum s "eruption_temperature" = 1000 := by
    intro s
    refine ⟨?_, ?_, ?_, ?_, ?_, ?_, ?_⟩ <;> simp [regimeNum, stillNum]
  have at_ : ∀ (c : Choice) (s k : String) (x : ℝ), (s, k) ∈ allReq → regimeNum s k = x → NumberAt env (exConfigR (.int 1) regimeNum c) s k x := by
    intro c s k x h e
    rw [← e]
    exact N c (s, k) h
  refine .step (d' := exConfigR (.int 1) regimeNum choice1) ⟨"basic", "bimodal", .inl ⟨ex_switched _ _ _ _ _ _ _ rfl (fun k hk x => ?_) ⟨_, _, rfl, rfl, rfl⟩ ⟨_, _, rfl, rfl, rfl⟩,
    0, 1, .inl ⟨rfl, at_ _ _ _ _ (by decide) (v3 _).1, at_ _ _ _ _ (by decide) (v3 _).2.1⟩,
    .inr ⟨rfl, ⟨_, at_ _ _ _ _ (by decide) rfl⟩, at_ _ _ _ _ (by decide) (v1 _ _ (by decide)), at_ _ _ _ _ (by decide) (v1 _ _ (by decide)),
      at_ _ _ _ _ (by decide) (v3 _).2.1, at_ _ _ _ _ (by decide) (v3 _).2.2.1⟩⟩⟩ ?_
  · rw [entry_models, entry_models]
    simp only [lookup_cons_eq]
    simp [Ne.symm hk, choice1]
  refine .step (d' := exConfigR (.int 1) regimeNum choice2) ⟨"basic", "bimodal_f_temp", .inr (.inl ⟨ex_switched _ _ _ _ _ _ _ rfl (fun k hk x => ?_) ⟨_, _, rfl, rfl, rfl⟩ ⟨_, _, rfl, rfl, rfl⟩,
    1 / 1000, .inl ⟨rfl, 1, 0, 1000, at_ _ _ _ _ (by decide) (v3 _).2.2.2.2.1, at_ _ _ _ _ (by decide) (v3 _).2.2.2.2.2.1, at_ _ _ _ _ (by decide) (v3 _).2.2.2.2.2.2, ?_⟩,
    .inr (.inr ⟨rfl, ⟨_, at_ _ _ _ _ (by decide) rfl⟩, at_ _ _ _ _ (by decide) (v2 _ _ (by decide)), at_ _ _ _ _ (by decide) (v2 _ _ (by decide))⟩),
    ⟨_, at_ _ _ _ _ (by decide) rfl⟩, ⟨_, at_ _ _ _ _ (by decide) rfl⟩, ⟨_, at_ _ _ _ _ (by decide) rfl⟩⟩)⟩ ?_
  · rw [entry_models, entry_models]
    simp only [lookup_cons_eq]
    simp [Ne.symm hk, choice1, choice2]
  · rw [sub_zero]
    exact div_of_ne (by norm_num)
  refine .step (d' := exConfigR (.int 1) regimeNum choice3) ⟨"constant", "bimodal", .inr (.inr ⟨ex_switched _ _ _ _ _ _ _ rfl (fun k hk x => ?_) ⟨_, _, rfl, rfl, rfl⟩ ⟨_, _, rfl, rfl, rfl⟩,
    0, .inl ⟨rfl, at_ _ _ _ _ (by decide) (v3 _).2.2.2.1⟩,
    .inr ⟨rfl, ⟨_, at_ _ _ _ _ (by decide) rfl⟩, at_ _ _ _ _ (by decide) (v1 _ _ (by decide)), at_ _ _ _ _ (by decide) (v1 _ _ (by decide))⟩⟩)⟩ (.refl _)
  rw [entry_models, entry_models]
  simp only [lookup_cons_eq]
  simp [Ne.symm hk, choice1, choice2, choice3]

/-- **C140**, non-vacuity: a complete run of three rows, and the same after the exchange of three of its models. -/
example : ∃ log t, log ≠ [] ∧ writeValues log = .ok (some t) ∧
    (∀ c ∈ [stillChoice, choice3], runOn [1] 3 exEnv "still.json" "out" (newRunner ⟨[("still.json", exConfigR (.int 1) regimeNum c)], [], []⟩) =
      some (.ok (), ⟨[("still.json", exConfigR (.int 1) regimeNum c)], [(resultFileName "out" "example" (toString (1 : Int)), t)], log⟩)) := by
  obtain ⟨log, t, hne, hw, _, _, hrun⟩ := still_run 3 (by norm_num) (by norm_num) 1 (.inr rfl) (fun _ x => x)
  have r0 := hrun "still.json" "out" ⟨[("still.json", stillConfig 3 (3 : ℕ) (.int 1))], [], []⟩ (by rw [lookup_cons_eq, if_pos rfl])
  have hcast : stillConfig 3 ((3 : ℕ) : ℝ) (.int 1) = stillConfig 3 3 (.int 1) := by norm_num
  rw [hcast] at r0
  obtain ⟨hs1, hs2⟩ := regime_same exEnv
  have hl : ∀ d : Json ℝ, lookup [("still.json", d)] "still.json" = some d := fun d => by rw [lookup_cons_eq, if_pos rfl]
  have base : runOn [1] 3 exEnv "still.json" "out" (newRunner ⟨[("still.json", exConfigR (.int 1) regimeNum stillChoice)], [], []⟩) =
      some (.ok (), ⟨[("still.json", exConfigR (.int 1) regimeNum stillChoice)], [(resultFileName "out" "example" (toString (1 : Int)), t)], log⟩) := by
    rcases C94_unused_entries_are_irrelevant [1] 3 exEnv "still.json" "out"
      (newRunner ⟨[("still.json", stillConfig 3 3 (.int 1))], [], []⟩)
      (newRunner ⟨[("still.json", exConfigR (.int 1) regimeNum stillChoice)], [], []⟩)
      (stillConfig 3 3 (.int 1)) (exConfigR (.int 1) regimeNum stillChoice) (hl _) (hl _) rfl rfl stillChoice
      (exConfig_selects _ _) hs1 hs2 with ⟨e, e', r1, r2⟩ | ⟨r1, r2⟩ | ⟨r, l, results, r1, r2⟩
    · rw [r0] at r1; cases r1
    · rw [r0] at r1; cases r1
    · rw [r0] at r1
      cases r1
      exact r2
  refine ⟨log, t, hne, hw, ?_⟩
  simp only [List.forall_mem_cons, List.not_mem_nil, false_implies, implies_true, and_true]
  refine ⟨base, ?_⟩
  rw [C140_models [1] 3 exEnv "still.json" "still.json" "out" (newRunner ⟨[("still.json", exConfigR (.int 1) regimeNum stillChoice)], [], []⟩)
    (newRunner ⟨[("still.json", exConfigR (.int 1) regimeNum choice3)], [], []⟩) _ _ (hl _) (hl _) rfl rfl (regime_chain exEnv), base]
  rfl

/-- **C140**, non-vacuity of the text form: the two configurations as files on one disk. -/
example (windows : Bool) : ∃ disk : List (String × List Char),
    runTextOn [1] 3 (milliFormat windows) "one.json" "out" disk = runTextOn [1] 3 (milliFormat windows) "two.json" "out" disk := by
  have hm : ∀ a b, milliRound (regimeNum a b) = regimeNum a b := by
    intro a b
    unfold regimeNum
    split
    · have := milli_int 0; push_cast at this; exact this
    · split
      · have := still_milli 3 "" "rainfall_rate"
        simpa [stillNum] using this
      · have := still_milli 3 a b
        push_cast at this
        exact this
  have hj : ∀ c : Choice, jsonLoad (milliFormat windows).float (jsonDump milliText (exConfigR (.int 1) regimeNum c)) = .ok (exConfigR (.int 1) regimeNum c) := by
    intro c
    have := C79_round_trip milliFloat milliText (exConfigR (.int 1) regimeNum c) (still_distinct _ _ _)
      (still_nums _ _ (fun a b => milli_readable _ (hm a b)) _ _) false
    simp only [stored, Bool.false_eq_true, if_false] at this
    exact this
  refine ⟨[("one.json", jsonDump milliText (exConfigR (.int 1) regimeNum stillChoice)), ("two.json", jsonDump milliText (exConfigR (.int 1) regimeNum choice3)),
    ("slope.txt", milliProfile)], ?_⟩
  refine C140_text (milliFormat windows) [1] 3 "one.json" "two.json" "out" _ _ _ _ _ ?_ ?_ ((jsonLoads_iff _ _ _).mp (hj stillChoice)) ((jsonLoads_iff _ _ _).mp (hj choice3))
    (regime_chain _)
  · show lookup _ "one.json" = _
    rw [lookup_cons_eq, if_pos rfl]
  · show lookup _ "two.json" = _
    rw [lookup_cons_eq, if_neg (by simp), lookup_cons_eq, if_pos rfl]

/-- **C140**, vesicles that could vary but do not: the hypotheses are met by `constant` and `poly`. -/
example (fuel : Nat) (p p' : Proc ℝ) (hd : lookup p.json "a.json" = some (exConfigR (.int 1) regimeNum stillChoice))
    (hd' : lookup p'.json "b.json" = some (exConfigR (.int 1) regimeNum { stillChoice with ves := "poly" })) (hlog : p'.log = p.log) (hres : p'.results = p.results) :
    runOn [1] fuel exEnv "b.json" "out" p' = (runOn [1] fuel exEnv "a.json" "out" p).map fun q => (q.1, { q.2 with json := p'.json }) := by
  have N : ∀ e ∈ allReq, NumberAt exEnv (exConfigR (.int 1) regimeNum stillChoice) e.1 e.2 (regimeNum e.1 e.2) := exConfig_number exEnv regimeNum stillChoice
  have n1 := N ("lava_state", "vesicle_fraction") (by decide)
  have n2 := N ("lava_state", "vesicle_poly_a") (by decide)
  have n3 := N ("lava_state", "vesicle_poly_b") (by decide)
  have e1 : regimeNum "lava_state" "vesicle_fraction" = 0 := by simp [regimeNum, stillNum]
  have e2 : regimeNum "lava_state" "vesicle_poly_a" = 0 := by simp [regimeNum]
  have e3 : regimeNum "lava_state" "vesicle_poly_b" = 0 := by simp [regimeNum]
  dsimp only at n1 n2 n3
  rw [e1] at n1
  rw [e2] at n2
  rw [e3] at n3
  refine C140_even_vesicles [1] fuel exEnv "a.json" "b.json" "out" p p' _ _ "constant" "poly" hd hd' hlog hres
    (ex_switched _ _ _ _ _ _ _ rfl (fun k hk x => ?_) ⟨_, _, rfl, rfl, rfl⟩ ⟨_, _, rfl, rfl, rfl⟩) 0 le_rfl (.inl (.inl ⟨rfl, n1⟩)) (.inr (.inr (.inr ⟨rfl, n1, n2, n3⟩)))
  rw [entry_models, entry_models]
  simp only [lookup_cons_eq]
  simp [Ne.symm hk]

end PyFlowGo
