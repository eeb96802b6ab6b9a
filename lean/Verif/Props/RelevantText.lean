import Verif.Props.Relevant
import Verif.Props.RunTextMore
import Verif.Props.SweepFullExample
/-
  C94 on the texts of the files, and concrete cases.
-/
set_option linter.unusedSectionVars false
set_option linter.unusedSimpArgs false
namespace PyFlowGo
open Spec
section
variable {α : Type} [Add α] [Sub α] [Mul α] [Neg α] [OfScientific α] [PyNum α]

/-- A run on texts is a run on the value of the configuration text. -/
theorem runTextOn_value (F : TextFormat α) (grid : List α) (fuel : Nat) (jsonFile folder : String) (disk : List (String × List Char))
    (text : List Char) (data : Json α) (hl : lookup disk (F.canon jsonFile) = some text) (hd : JsonText F.float (universal text) data) :
    runTextOn grid fuel F jsonFile folder disk =
      (runOn grid fuel (textEnv F disk) jsonFile folder (newRunner ⟨[(F.canon jsonFile, data)], [], []⟩)).map
        fun q => (q.1, addedFiles F q.2.results ++ disk) := by
  have hj : jsonLoad F.float text = .ok data := (jsonLoads_iff F.float _ data).mpr hd
  unfold runTextOn
  rw [hl]
  dsimp only
  rw [hj]
  dsimp only
  cases runOn grid fuel (textEnv F disk) jsonFile folder (newRunner ⟨[(F.canon jsonFile, data)], [], []⟩) with
  | none => rfl
  | some q =>
    obtain ⟨r, q⟩ := q
    cases hq : q.results with
    | nil => simp [addedFiles, hq]
    | cons x xs => simp [addedFiles, hq, writeFile]

/-- Disks whose profiles agree serve a run alike. -/
theorem runOn_disks (F : TextFormat α) (grid : List α) (fuel : Nat) (jsonFile folder : String) (disk₁ disk₂ : List (String × List Char))
    (data : Json α) (hp : ∀ path, MayRead data path →
      (lookup disk₁ (F.canon path)).map dataLines = (lookup disk₂ (F.canon path)).map dataLines) :
    runOn grid fuel (textEnv F disk₂) jsonFile folder (newRunner ⟨[(F.canon jsonFile, data)], [], []⟩) =
      runOn grid fuel (textEnv F disk₁) jsonFile folder (newRunner ⟨[(F.canon jsonFile, data)], [], []⟩) := by
  have hsf : ∀ path, MayRead data path → (textEnv F disk₂).slopeFile path = (textEnv F disk₁).slopeFile path := by
    intro path hm
    have := hp path hm
    show (lookup disk₂ (F.canon path)).bind (fun t => (slopeRows F.float (dataLines t)).toOption) =
      (lookup disk₁ (F.canon path)).bind (fun t => (slopeRows F.float (dataLines t)).toOption)
    cases g₁ : lookup disk₁ (F.canon path) <;> cases g₂ : lookup disk₂ (F.canon path) <;> rw [g₁, g₂] at this <;> simp_all
  have hcf : (textEnv F disk₂).crustFile "resources/crust_temperature_profile.txt" =
      (textEnv F disk₁).crustFile "resources/crust_temperature_profile.txt" := by
    have := hp _ (Or.inr (Or.inr rfl))
    show (lookup disk₂ (F.canon _)).bind (fun t => (crustRows F.float (dataLines t)).toOption) =
      (lookup disk₁ (F.canon _)).bind (fun t => (crustRows F.float (dataLines t)).toOption)
    cases g₁ : lookup disk₁ (F.canon "resources/crust_temperature_profile.txt") <;>
      cases g₂ : lookup disk₂ (F.canon "resources/crust_temperature_profile.txt") <;> rw [g₁, g₂] at this <;> simp_all
  refine runOn_congr (textEnv F disk₁) (textEnv F disk₂).slopeFile (textEnv F disk₂).crustFile hcf grid fuel jsonFile folder _ ?_
  intro d hd v hv t
  have : d = data := by
    have : lookup [(F.canon jsonFile, data)] (F.canon jsonFile) = some d := hd
    rw [lookup_cons_eq, if_pos rfl] at this
    exact (Option.some.inj this).symm
  subst this
  unfold loadSlope
  cases v with
  | str s => dsimp only; rw [hsf s (Or.inl hv)]
  | null => dsimp only; rw [hsf _ (Or.inr (Or.inl ⟨hv, rfl⟩))]
  | _ => rfl

/-- **C94**, on the texts: two configuration files with the same relevant entries, beside profiles with the same data lines, both
    make the run raise and write nothing, or give the same outcome and the same new file. -/
theorem C94_unused_entries_on_texts (F : TextFormat α) (grid : List α) (fuel : Nat) (jsonFile folder : String)
    (disk₁ disk₂ : List (String × List Char)) (text₁ text₂ : List Char) (d d' : Json α)
    (h₁ : lookup disk₁ (F.canon jsonFile) = some text₁) (h₂ : lookup disk₂ (F.canon jsonFile) = some text₂)
    (hd₁ : JsonText F.float (universal text₁) d) (hd₂ : JsonText F.float (universal text₂) d')
    (hp : ∀ path, MayRead d path →
      (lookup disk₁ (F.canon path)).map dataLines = (lookup disk₂ (F.canon path)).map dataLines)
    (c : Choice) (hc : Selects d c) (h : SameEntries (textEnv F disk₁) c d d') (hs : SameSwitch d d') :
    (∃ e e', runTextOn grid fuel F jsonFile folder disk₁ = some (.error e, disk₁) ∧
      runTextOn grid fuel F jsonFile folder disk₂ = some (.error e', disk₂)) ∨
    ∃ outcome : Option (Except Err Unit × List (String × List Char)),
      runTextOn grid fuel F jsonFile folder disk₁ = outcome.map (fun q => (q.1, q.2 ++ disk₁)) ∧
      runTextOn grid fuel F jsonFile folder disk₂ = outcome.map (fun q => (q.1, q.2 ++ disk₂)) := by
  rw [runTextOn_value F grid fuel jsonFile folder disk₁ text₁ d h₁ hd₁, runTextOn_value F grid fuel jsonFile folder disk₂ text₂ d' h₂ hd₂]
  have hp' : ∀ path, MayRead d' path →
      (lookup disk₁ (F.canon path)).map dataLines = (lookup disk₂ (F.canon path)).map dataLines := by
    intro path hm
    refine hp path ?_
    have ht := fun v => h.top "slope_file" (by simp [usedTop]) v
    rcases hm with hm | ⟨hm, e⟩ | hm
    · exact .inl ((ht _).mpr hm)
    · exact .inr (.inl ⟨(ht _).mpr hm, e⟩)
    · exact .inr (.inr hm)
  rw [runOn_disks F grid fuel jsonFile folder disk₁ disk₂ d' hp']
  have hl : ∀ d : Json α, lookup (newRunner (⟨[(F.canon jsonFile, d)], [], []⟩ : Proc α)).json ((textEnv F disk₁).canon jsonFile) = some d := by
    intro d
    show lookup [(F.canon jsonFile, d)] (F.canon jsonFile) = some d
    rw [lookup_cons_eq, if_pos rfl]
  rcases C94_unused_entries_are_irrelevant grid fuel (textEnv F disk₁) jsonFile folder
    (newRunner ⟨[(F.canon jsonFile, d)], [], []⟩) (newRunner ⟨[(F.canon jsonFile, d')], [], []⟩) d d' (hl d) (hl d') rfl rfl c hc h hs with
    ⟨e, e', r1, r2⟩ | ⟨r1, r2⟩ | ⟨r, log, results, r1, r2⟩
  · refine .inl ⟨e, e', ?_, ?_⟩
    · rw [r1]; rfl
    · rw [r2]; rfl
  · exact .inr ⟨none, by rw [r1]; rfl, by rw [r2]; rfl⟩
  · exact .inr ⟨some (r, addedFiles F results), by rw [r1]; rfl, by rw [r2]; rfl⟩

/-! ### Concrete cases -/

theorem exConfig_entry {extra : List (String × Json α)} {rate : Json α} (num : String → String → α) (c : Choice) :
    ∀ e ∈ allReq, EntryAt (exConfigM extra rate num c) e.1 e.2 (.num (num e.1 e.2)) := by
  unfold allReq
  simp only [List.forall_mem_cons, List.not_mem_nil, false_implies, implies_true, and_true]
  repeat' constructor

/-- Example configurations with the same relevant numbers, but for those in `ex`, have the same relevant entries, but for those in `ex`. -/
theorem exConfig_entries (ex : List Req) (env : Env α) (rate : Json α) (num num' : String → String → α) (c : Choice) (extra extra' : List (String × Json α))
    (hx : ∀ k, k ≠ "mass_conservation" → lookup extra k = none) (hx' : ∀ k, k ≠ "mass_conservation" → lookup extra' k = none)
    (hstep : num "" "step_size" = num' "" "step_size")
    (h : ∀ e ∈ allReq, e ∈ usedEntries c → e ∉ ex → num e.1 e.2 = num' e.1 e.2) (d d' : Json α) (hd : d = exConfigM extra rate num c)
    (hd' : d' = exConfigM extra' rate num' c) :
    ((∀ e ∈ usedEntries c, e ∉ ex → ∀ v, EntryAt d e.1 e.2 v ↔ EntryAt d' e.1 e.2 v) ∧
     (∀ k ∈ usedTop, ∀ v, TopEntry d k v ↔ TopEntry d' k v) ∧
     (∀ e ∈ idleNumbers c, (∃ x, NumberAt env d e.1 e.2 x) ↔ ∃ x, NumberAt env d' e.1 e.2 x) ∧
     (c.cryst = "melts" → ((∃ v, TopEntry d "melts_look-up_table" v) ↔ ∃ v, TopEntry d' "melts_look-up_table" v)) ∧
     (c.crust = "field" → ((∃ v, EntryAt d "thermal_parameters" "crust_temperature_file" v) ↔
       ∃ v, EntryAt d' "thermal_parameters" "crust_temperature_file" v))) ∧
      (extra = extra' → SameSwitch d d') := by
  subst hd hd'
  have both : ∀ (d d' : Json α) s k x, EntryAt d s k x → EntryAt d' s k x → ∀ v, EntryAt d s k v ↔ EntryAt d' s k v := by
    intro d d' s k x h1 h2 v
    exact ⟨fun hv => entry_unique h1 hv ▸ h2, fun hv => entry_unique h2 hv ▸ h1⟩
  have num_entry : ∀ e ∈ allReq, e ∈ usedEntries c → e ∉ ex → ∀ v, EntryAt (exConfigM extra rate num c) e.1 e.2 v ↔ EntryAt (exConfigM extra' rate num' c) e.1 e.2 v := by
    intro e he hu hn
    exact both _ _ _ _ _ (exConfig_entry num c e he) (h e he hu hn ▸ exConfig_entry num' c e he)
  have hname : ∀ e ∈ nameEntries, ∀ v, EntryAt (exConfigM extra rate num c) e.1 e.2 v ↔ EntryAt (exConfigM extra' rate num' c) e.1 e.2 v := by
    have s1 := exConfig_selects (extra := extra) (rate := rate) num c
    have s2 := exConfig_selects (extra := extra') (rate := rate) num' c
    obtain ⟨a1, a2, a3, a4, a5, a6, a7, a8, a9, a10, a11, a12, a13, a14⟩ := s1
    obtain ⟨b1, b2, b3, b4, b5, b6, b7, b8, b9, b10, b11, b12, b13, b14⟩ := s2
    unfold nameEntries
    simp only [List.forall_mem_cons, List.not_mem_nil, false_implies, implies_true, and_true]
    exact ⟨both _ _ _ _ _ a1 b1, both _ _ _ _ _ a2 b2, both _ _ _ _ _ a3 b3, both _ _ _ _ _ a4 b4, both _ _ _ _ _ a5 b5,
      both _ _ _ _ _ a6 b6, both _ _ _ _ _ a7 b7, both _ _ _ _ _ a8 b8, both _ _ _ _ _ a9 b9, both _ _ _ _ _ a10 b10,
      both _ _ _ _ _ a11 b11, both _ _ _ _ _ a12 b12, both _ _ _ _ _ a13 b13, both _ _ _ _ _ a14 b14⟩
  have switch : ∀ k, (k = "slope_smoothing_number_of_points" ∨ k = "mass_conservation") → ∀ (extra : List (String × Json α)) (num : String → String → α) v,
      EntryAt (exConfigM extra rate num c) "terrain_conditions" k v ↔ lookup extra k = some v := by
    intro k hk extra num v
    have hno : lookup (("slope_smoothing_active", .bool false) :: exSection num "terrain_conditions") k = none := by
      rcases hk with rfl | rfl <;> simp [exSection, allReq, lookup_cons_eq, lookup]
    constructor
    · rintro ⟨top, inner, e1, e2, e3⟩
      cases e1
      cases e2
      rw [lookup_append, hno] at e3
      exact e3
    · intro hv
      refine ⟨_, _, rfl, rfl, ?_⟩
      rw [lookup_append, hno]
      exact hv
  refine ⟨⟨?_, ?_, ?_, ?_, ?_⟩, ?_⟩
  · intro e he hn
    have hu := he
    unfold usedEntries at he
    rw [List.mem_append, List.mem_append, List.mem_filter] at he
    rcases he with (he | he) | ⟨he, _⟩
    · exact hname e he
    · by_cases ha : e ∈ allReq
      · exact num_entry e ha hu hn
      · have : e = ("terrain_conditions", "slope_smoothing_active") ∨ e = ("terrain_conditions", "slope_smoothing_number_of_points") := by
          revert ha he; clear hn hu num_entry both hname switch h
          revert e
          decide
        rcases this with rfl | rfl
        · exact both _ _ _ _ (.bool false) ⟨_, _, rfl, rfl, rfl⟩ ⟨_, _, rfl, rfl, rfl⟩
        · intro v
          rw [switch _ (.inl rfl), switch _ (.inl rfl), hx _ (by decide), hx' _ (by decide)]
    · exact num_entry e (required_subset c e he) hu hn
  · unfold usedTop
    simp only [List.forall_mem_cons, List.not_mem_nil, false_implies, implies_true, and_true]
    have top : ∀ (d d' : Json α) k x, TopEntry d k x → TopEntry d' k x → ∀ v, TopEntry d k v ↔ TopEntry d' k v := by
      intro d d' k x h1 h2 v
      exact ⟨fun hv => topEntry_unique h1 hv ▸ h2, fun hv => topEntry_unique h2 hv ▸ h1⟩
    refine ⟨top _ _ _ rate ⟨_, rfl, rfl⟩ ⟨_, rfl, rfl⟩, top _ _ _ _ ⟨_, rfl, rfl⟩ ⟨_, rfl, rfl⟩, top _ _ _ _ ⟨_, rfl, rfl⟩ ⟨_, rfl, rfl⟩,
      top _ _ _ (.num (num "" "step_size")) ⟨_, rfl, rfl⟩ ⟨_, rfl, by rw [hstep]; rfl⟩⟩
  · intro e he
    have ha : e ∈ allReq := by
      unfold idleNumbers at he
      rw [List.mem_append, List.mem_append] at he
      rcases he with (he | he) | he <;> split at he <;> simp at he <;> subst he <;> decide
    exact ⟨fun _ => ⟨_, exConfig_number env num' c e ha⟩, fun _ => ⟨_, exConfig_number env num c e ha⟩⟩
  · intro _
    exact ⟨fun _ => ⟨_, _, rfl, rfl⟩, fun _ => ⟨_, _, rfl, rfl⟩⟩
  · intro _
    exact ⟨fun _ => ⟨_, _, _, rfl, rfl, rfl⟩, fun _ => ⟨_, _, _, rfl, rfl, rfl⟩⟩
  · rintro rfl v
    rw [switch _ (.inr rfl), switch _ (.inr rfl)]

/-- Example configurations with the same relevant numbers have the same relevant entries. -/
theorem exConfig_same (env : Env α) (rate : Json α) (num num' : String → String → α) (c : Choice) (extra extra' : List (String × Json α))
    (hx : ∀ k, k ≠ "mass_conservation" → lookup extra k = none) (hx' : ∀ k, k ≠ "mass_conservation" → lookup extra' k = none)
    (hstep : num "" "step_size" = num' "" "step_size")
    (h : ∀ e ∈ allReq, e ∈ usedEntries c → num e.1 e.2 = num' e.1 e.2) :
    SameEntries env c (exConfigM extra rate num c) (exConfigM extra' rate num' c) ∧
      (extra = extra' → SameSwitch (exConfigM extra rate num c) (exConfigM extra' rate num' c)) := by
  obtain ⟨⟨h1, h2, h3, h4, h5⟩, h6⟩ := exConfig_entries [] env rate num num' c extra extra' hx hx' hstep (fun e ha hu _ => h e ha hu) _ _ rfl rfl
  exact ⟨⟨fun e he => h1 e he (by simp), h2, h3, h4, h5⟩, h6⟩

/-- Example configurations with the same relevant numbers but for the length of the channel and the time at the vent. -/
theorem exConfig_cut (env : Env α) (rate : Json α) (num num' : String → String → α) (c : Choice) (extra extra' : List (String × Json α))
    (hx : ∀ k, k ≠ "mass_conservation" → lookup extra k = none) (hx' : ∀ k, k ≠ "mass_conservation" → lookup extra' k = none)
    (hstep : num "" "step_size" = num' "" "step_size")
    (h : ∀ e ∈ allReq, e ∈ usedEntries c → e ∉ cutEntries → num e.1 e.2 = num' e.1 e.2) :
    SameButCut env c (exConfigM extra rate num c) (exConfigM extra' rate num' c) ∧
      (extra = extra' → SameSwitch (exConfigM extra rate num c) (exConfigM extra' rate num' c)) := by
  obtain ⟨⟨h1, h2, h3, h4, h5⟩, h6⟩ := exConfig_entries cutEntries env rate num num' c extra extra' hx hx' hstep h _ _ rfl rfl
  exact ⟨⟨h1, h2, h3, h4, h5⟩, h6⟩

end

/-- The numbers of the still example with another value for entries its models make no use of: the coefficients of the VFT viscosity. -/
noncomputable def otherNum (x : ℝ) (s k : String) : ℝ :=
  if s = "melt_viscosity_parameters" ∧ (k = "a_vft" ∨ k = "b_vft" ∨ k = "c_vft") then x else stillNum 3 3 s k

theorem other_same (env : Env ℝ) (x : ℝ) : SameEntries env stillChoice (stillConfig 3 3 (.int 1)) (exConfigR (.int 1) (otherNum x) stillChoice) ∧
    SameSwitch (stillConfig 3 3 (.int 1)) (exConfigR (.int 1) (otherNum x) stillChoice) := by
  suffices hh : ∀ e ∈ allReq, e ∈ usedEntries stillChoice → stillNum 3 3 e.1 e.2 = otherNum x e.1 e.2 by
    have := exConfig_same env (.int 1) (stillNum 3 3) (otherNum x) stillChoice [] [] (fun _ _ => rfl) (fun _ _ => rfl)
      (by unfold otherNum; rw [if_neg (by simp)]) hh
    exact ⟨this.1, this.2 rfl⟩
  intro e _ hu
  unfold otherNum
  rw [if_neg]
  rintro ⟨h1, h2⟩
  obtain ⟨s, k⟩ := e
  dsimp only at h1 h2
  subst h1
  rcases h2 with rfl | rfl | rfl <;> exact absurd hu (by decide)

/-- Whatever the VFT coefficients, a run with the Shaw viscosity is the complete run of three rows known from C59. -/
example (x : ℝ) : ∃ log t, log ≠ [] ∧ writeValues log = .ok (some t) ∧
    runOn [1] 3 exEnv "still.json" "out" (newRunner ⟨[("still.json", exConfigR (.int 1) (otherNum x) stillChoice)], [], []⟩) =
      some (.ok (), ⟨[("still.json", exConfigR (.int 1) (otherNum x) stillChoice)],
        [(resultFileName "out" "example" (toString (1 : Int)), t)], log⟩) := by
  obtain ⟨log, t, hne, hw, _, _, hrun⟩ := still_run 3 (by norm_num) (by norm_num) 1 (.inr rfl) (fun _ x => x)
  have r0 := hrun "still.json" "out" ⟨[("still.json", stillConfig 3 (3 : ℕ) (.int 1))], [], []⟩ (by rw [lookup_cons_eq, if_pos rfl])
  refine ⟨log, t, hne, hw, ?_⟩
  have hcast : stillConfig 3 ((3 : ℕ) : ℝ) (.int 1) = stillConfig 3 3 (.int 1) := by norm_num
  rw [hcast] at r0
  obtain ⟨hs1, hs2⟩ := other_same exEnv x
  rcases C94_unused_entries_are_irrelevant [1] 3 exEnv "still.json" "out"
    (newRunner ⟨[("still.json", stillConfig 3 3 (.int 1))], [], []⟩)
    (newRunner ⟨[("still.json", exConfigR (.int 1) (otherNum x) stillChoice)], [], []⟩)
    (stillConfig 3 3 (.int 1)) (exConfigR (.int 1) (otherNum x) stillChoice)
    (by show lookup [("still.json", _)] "still.json" = _; rw [lookup_cons_eq, if_pos rfl])
    (by show lookup [("still.json", _)] "still.json" = _; rw [lookup_cons_eq, if_pos rfl]) rfl rfl stillChoice
    (exConfig_selects _ _) hs1 hs2 with ⟨e, e', r1, r2⟩ | ⟨r1, r2⟩ | ⟨r, l, results, r1, r2⟩
  · rw [r0] at r1; cases r1
  · rw [r0] at r1; cases r1
  · rw [r0] at r1
    cases r1
    exact r2

/-- On texts: a file with other VFT coefficients, whatever whole number they are, gives the same result file. -/
theorem other_text (windows : Bool) (folder : String) (x : ℤ) : ∃ out,
    runTextOn [1] 3 (milliFormat windows) "still.json" folder (milliDisk 3) =
      some (.ok (), (resultFileName folder "example" "1", out) :: milliDisk 3) ∧
    runTextOn [1] 3 (milliFormat windows) "still.json" folder
        [("still.json", jsonDump milliText (exConfigR (.int 1) (otherNum x) stillChoice)), ("slope.txt", milliProfile)] =
      some (.ok (), [(resultFileName folder "example" "1", out),
        ("still.json", jsonDump milliText (exConfigR (.int 1) (otherNum x) stillChoice)), ("slope.txt", milliProfile)]) := by
  obtain ⟨out, h⟩ := milli_run windows 3 (by norm_num) (by norm_num) folder
  refine ⟨out, h, ?_⟩
  have hcast : stillConfig 3 ((3 : ℕ) : ℝ) (.int 1) = stillConfig 3 3 (.int 1) := by norm_num
  have hround : ∀ a b, milliRound (otherNum x a b) = otherNum x a b := by
    intro a b
    unfold otherNum
    split
    · exact milli_int x
    · have := still_milli 3 a b
      rwa [show (((3 : ℕ) : ℝ)) = 3 by norm_num] at this
  have load : ∀ num : String → String → ℝ, (∀ a b, milliRound (num a b) = num a b) →
      JsonText (milliFormat windows).float (universal (jsonDump milliText (exConfigR (.int 1) num stillChoice))) (exConfigR (.int 1) num stillChoice) := by
    intro num hn
    have := C79_round_trip milliFloat milliText (exConfigR (.int 1) num stillChoice) (still_distinct _ _ _)
      (still_nums _ _ (fun a b => milli_readable _ (hn a b)) _ _) false
    simp only [stored, Bool.false_eq_true, if_false] at this
    exact (jsonLoads_iff _ _ _).mp this
  obtain ⟨hs1, hs2⟩ := other_same (textEnv (milliFormat windows) (milliDisk 3)) x
  rcases C94_unused_entries_on_texts (milliFormat windows) [1] 3 "still.json" folder (milliDisk 3)
    [("still.json", jsonDump milliText (exConfigR (.int 1) (otherNum x) stillChoice)), ("slope.txt", milliProfile)]
    (jsonDump milliText (stillConfig 3 ((3 : ℕ) : ℝ) (.int 1))) (jsonDump milliText (exConfigR (.int 1) (otherNum x) stillChoice))
    (stillConfig 3 3 (.int 1)) (exConfigR (.int 1) (otherNum x) stillChoice)
    (by show lookup (milliDisk 3) "still.json" = _; unfold milliDisk; rw [lookup_cons_eq, if_pos rfl])
    (by show lookup _ "still.json" = _; rw [lookup_cons_eq, if_pos rfl])
    (by rw [hcast]; exact load _ (fun a b => by have := still_milli 3 a b; rwa [show (((3 : ℕ) : ℝ)) = 3 by norm_num] at this))
    (load _ hround) (by
      intro path _
      show (lookup (milliDisk 3) path).map dataLines = (lookup _ path).map dataLines
      unfold milliDisk
      by_cases e1 : "still.json" = path
      · subst e1
        rename_i hm
        exfalso
        have hs : ∀ v, TopEntry (stillConfig 3 3 (.int 1)) "slope_file" v → v = .str "slope.txt" :=
          fun v hv => topEntry_unique hv ⟨_, rfl, rfl⟩
        rcases hm with hm | ⟨hm, _⟩ | hm
        · exact absurd (Json.str.inj (hs _ hm)) (by decide)
        · cases hs _ hm
        · exact absurd hm (by decide)
      · rw [lookup_cons_eq, if_neg e1, lookup_cons_eq, lookup_cons_eq, if_neg e1, lookup_cons_eq])
    stillChoice (exConfig_selects _ _) hs1 hs2 with ⟨e, e', r1, r2⟩ | ⟨o, r1, r2⟩
  · rw [h] at r1; cases r1
  · rw [h] at r1
    cases o with
    | none => cases r1
    | some q =>
      obtain ⟨r, new⟩ := q
      simp only [Option.map_some, Option.some.injEq, Prod.mk.injEq] at r1
      obtain ⟨rfl, r1⟩ := r1
      have : new = [(resultFileName folder "example" "1", out)] := by
        have h3 : [(resultFileName folder "example" "1", out)] ++ milliDisk 3 = new ++ milliDisk 3 := r1
        exact (List.append_cancel_right h3).symm
      rw [r2, this]
      rfl

end PyFlowGo
