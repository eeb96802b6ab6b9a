import Verif.Props.RunText
/-
  C82: what a run on texts depends on.
-/
set_option linter.unusedSectionVars false
namespace PyFlowGo
open Spec
variable {α : Type} [Add α] [Sub α] [Mul α] [Neg α] [OfScientific α] [PyNum α]

theorem factory_congr (env : Env α) (sf : String → Option (List (SlopeLine α))) (cf : String → Option (List (α × α)))
    (hc : cf "resources/crust_temperature_profile.txt" = env.crustFile "resources/crust_temperature_profile.txt") (data : Json α) :
    factory { env with slopeFile := sf, crustFile := cf } data = factory env data := by
  have h : ∀ n, buildCrust { env with slopeFile := sf, crustFile := cf } data n = buildCrust env data n := by
    intro n
    unfold buildCrust
    dsimp only
    rw [hc]
    rfl
  have h2 : ∀ k, readFlux { env with slopeFile := sf, crustFile := cf } data k = readFlux env data k := by
    intro k
    cases k <;> rfl
  unfold factory
  simp only [h, funext h2]
  rfl

theorem prepare_congr (env : Env α) (sf : String → Option (List (SlopeLine α))) (cf : String → Option (List (α × α)))
    (hc : cf "resources/crust_temperature_profile.txt" = env.crustFile "resources/crust_temperature_profile.txt") (data : Json α)
    (hs : ∀ v, TopEntry data "slope_file" v → ∀ t, loadSlope { env with slopeFile := sf, crustFile := cf } t v = loadSlope env t v)
    (log : Log (Cell α)) :
    prepare { env with slopeFile := sf, crustFile := cf } data log = prepare env data log := by
  unfold prepare
  rw [factory_congr env sf cf hc data]
  have h1 : readRunConfig { env with slopeFile := sf, crustFile := cf } data = readRunConfig env data := rfl
  have h2 : buildTerrain { env with slopeFile := sf, crustFile := cf } data = buildTerrain env data := rfl
  rw [h1, h2]
  cases hcfg : readRunConfig env data with
  | error e => rfl
  | ok cfg =>
    have : TopEntry data "slope_file" cfg.slopeFile := by
      rw [readRunConfig_iff] at hcfg
      exact hcfg.2.2.1
    rw [ok_bind, ok_bind]
    cases buildTerrain env data with
    | error e => rfl
    | ok t0 =>
      rw [ok_bind, ok_bind, hs _ this]
      rfl

theorem runOn_congr (env : Env α) (sf : String → Option (List (SlopeLine α))) (cf : String → Option (List (α × α)))
    (hc : cf "resources/crust_temperature_profile.txt" = env.crustFile "resources/crust_temperature_profile.txt")
    (grid : List α) (fuel : Nat) (jsonFile folder : String) (p : Proc α)
    (hs : ∀ data, lookup p.json (env.canon jsonFile) = some data → ∀ v, TopEntry data "slope_file" v →
      ∀ t, loadSlope { env with slopeFile := sf, crustFile := cf } t v = loadSlope env t v) :
    runOn grid fuel { env with slopeFile := sf, crustFile := cf } jsonFile folder p = runOn grid fuel env jsonFile folder p := by
  unfold runOn
  dsimp only
  cases hl : lookup p.json (env.canon jsonFile) with
  | none => rfl
  | some data =>
    dsimp only
    rw [prepare_congr env sf cf hc data (hs data hl)]
    rfl

/-- The result files after a run: unchanged after a failure, at most one more after a success. -/
theorem runOn_results (grid : List α) (fuel : Nat) (env : Env α) (jsonFile folder : String) (p p' : Proc α) (r : Except Err Unit)
    (h : runOn grid fuel env jsonFile folder p = some (r, p')) :
    p'.results = p.results ∨ r = .ok () ∧ ∃ name t, p'.results = (name, t) :: p.results := by
  unfold runOn at h
  split at h
  · simp only [Option.some.injEq, Prod.mk.injEq] at h; left; rw [← h.2]
  · split at h
    · simp only [Option.some.injEq, Prod.mk.injEq] at h; left; rw [← h.2]
    · split at h
      · cases h
      · simp only [Option.some.injEq, Prod.mk.injEq] at h; left; rw [← h.2]
      · split at h
        · simp only [Option.some.injEq, Prod.mk.injEq] at h; left; rw [← h.2]
        · simp only [Option.some.injEq, Prod.mk.injEq] at h; left; rw [← h.2]
        · simp only [Option.some.injEq, Prod.mk.injEq] at h
          right
          exact ⟨h.1.symm, _, _, by rw [← h.2]; rfl⟩

/-- What a run adds to the disk. -/
def addedFiles (F : TextFormat α) (results : List (String × CsvTable (Cell α))) : List (String × List Char) :=
  results.head?.toList.map fun q => (q.1, stored F.windows (q.2.text F.str))

/-- **C82**. A run depends on nothing but the value of its configuration file and the fields of the data lines of the profiles it
    reads: two disks that agree on these (however the files are laid out, and whatever else is on the disk) give the
    same outcome and the same new file, if any. A run that fails writes nothing, and no run changes or removes a file other
    than by adding one result file. -/
theorem C82_inputs_determine_result (F : TextFormat α) (grid : List α) (fuel : Nat) (jsonFile folder : String)
    (disk₁ disk₂ : List (String × List Char)) (text₁ text₂ : List Char) (data : Json α)
    (h₁ : lookup disk₁ (F.canon jsonFile) = some text₁) (h₂ : lookup disk₂ (F.canon jsonFile) = some text₂)
    (hd₁ : JsonText F.float (universal text₁) data) (hd₂ : JsonText F.float (universal text₂) data)
    (hp : ∀ path, MayRead data path →
      (lookup disk₁ (F.canon path)).map dataLines = (lookup disk₂ (F.canon path)).map dataLines) :
    ∃ outcome : Option (Except Err Unit × List (String × List Char)),
      runTextOn grid fuel F jsonFile folder disk₁ = outcome.map (fun q => (q.1, q.2 ++ disk₁)) ∧
      runTextOn grid fuel F jsonFile folder disk₂ = outcome.map (fun q => (q.1, q.2 ++ disk₂)) ∧
      ∀ r new, outcome = some (r, new) → new.length ≤ 1 ∧ (r ≠ .ok () → new = []) := by
  have e₁ : jsonLoad F.float text₁ = .ok data := (jsonLoads_iff F.float _ data).mpr hd₁
  have e₂ : jsonLoad F.float text₂ = .ok data := (jsonLoads_iff F.float _ data).mpr hd₂
  have hsf : ∀ path, MayRead data path → (textEnv F disk₂).slopeFile path = (textEnv F disk₁).slopeFile path := by
    intro path hm
    have := hp path hm
    show (lookup disk₂ (F.canon path)).bind (fun t => (slopeRows F.float (dataLines t)).toOption) =
      (lookup disk₁ (F.canon path)).bind (fun t => (slopeRows F.float (dataLines t)).toOption)
    cases g₁ : lookup disk₁ (F.canon path) <;> cases g₂ : lookup disk₂ (F.canon path) <;> rw [g₁, g₂] at this <;> simp_all
  have hcf : (textEnv F disk₂).crustFile "resources/crust_temperature_profile.txt" =
      (textEnv F disk₁).crustFile "resources/crust_temperature_profile.txt" := by
    have := hp _ (Or.inr (Or.inr rfl))
    show (lookup disk₂ (F.canon _)).bind (fun t => (crustRows F.float (dataLines t)).toOption) =
      (lookup disk₁ (F.canon _)).bind (fun t => (crustRows F.float (dataLines t)).toOption)
    cases g₁ : lookup disk₁ (F.canon "resources/crust_temperature_profile.txt") <;>
      cases g₂ : lookup disk₂ (F.canon "resources/crust_temperature_profile.txt") <;> rw [g₁, g₂] at this <;> simp_all
  let p : Proc α := newRunner ⟨[(F.canon jsonFile, data)], [], []⟩
  have hrun : runOn grid fuel (textEnv F disk₂) jsonFile folder p = runOn grid fuel (textEnv F disk₁) jsonFile folder p := by
    refine runOn_congr (textEnv F disk₁) (textEnv F disk₂).slopeFile (textEnv F disk₂).crustFile hcf grid fuel jsonFile folder p ?_
    intro d hd v hv t
    have : d = data := by
      have : lookup [(F.canon jsonFile, data)] (F.canon jsonFile) = some d := hd
      rw [lookup_cons_eq, if_pos rfl] at this
      exact (Option.some.inj this).symm
    subst this
    unfold loadSlope
    cases v with
    | str s => dsimp only; rw [hsf s (Or.inl hv)]
    | null => dsimp only; rw [hsf _ (Or.inr (Or.inl ⟨hv, rfl⟩))]
    | _ => rfl
  have key : ∀ disk text, lookup disk (F.canon jsonFile) = some text → jsonLoad F.float text = .ok data →
      runTextOn grid fuel F jsonFile folder disk =
        ((runOn grid fuel (textEnv F disk) jsonFile folder p).map fun q => (q.1, addedFiles F q.2.results)).map
          (fun q => (q.1, q.2 ++ disk)) := by
    intro disk text hl hj
    unfold runTextOn
    rw [hl]
    dsimp only
    rw [hj]
    dsimp only
    show (match runOn grid fuel (textEnv F disk) jsonFile folder p with | none => _ | some (r, p) => _) = _
    cases runOn grid fuel (textEnv F disk) jsonFile folder p with
    | none => rfl
    | some q =>
      obtain ⟨r, q⟩ := q
      cases hq : q.results with
      | nil => simp [addedFiles, hq]
      | cons x xs => simp [addedFiles, hq, writeFile]
  refine ⟨_, key disk₁ text₁ h₁ e₁, by rw [key disk₂ text₂ h₂ e₂, hrun], ?_⟩
  intro r new hnew
  obtain ⟨⟨r', q⟩, hq, he⟩ := Option.map_eq_some_iff.mp hnew
  cases he
  rcases runOn_results grid fuel _ jsonFile folder p q r' hq with h | ⟨hr, name, t, h⟩
  · have : q.results = [] := h
    simp [addedFiles, this]
  · simp [addedFiles, h, hr]

/-- **C82**: a missing configuration file and a text that is not JSON are refused, and nothing is written. -/
theorem C82_bad_configuration (F : TextFormat α) (grid : List α) (fuel : Nat) (jsonFile folder : String)
    (disk : List (String × List Char)) :
    (lookup disk (F.canon jsonFile) = none → runTextOn grid fuel F jsonFile folder disk = some (.error .fileNotFound, disk)) ∧
    ∀ text, lookup disk (F.canon jsonFile) = some text → (¬ ∃ data, JsonText F.float (universal text) data) →
      runTextOn grid fuel F jsonFile folder disk = some (.error .valueError, disk) := by
  constructor
  · intro h; unfold runTextOn; rw [h]
  · intro text h hn
    unfold runTextOn
    rw [h]
    dsimp only
    have : jsonLoad F.float text = .error .valueError := by
      cases hj : jsonLoad F.float text with
      | ok j => exact absurd ⟨j, (jsonLoads_iff F.float _ j).mp hj⟩ hn
      | error e =>
        unfold jsonLoad jsonLoads at hj
        split at hj
        · exact hj.symm
        · split at hj
          · cases hj
          · exact hj.symm
    rw [this]

/-- **C82**: whatever a run does, the disk afterwards is the disk before with at most one file added; it is the disk before
    when the run failed. -/
theorem C82_disk_grows_by_one_file (F : TextFormat α) (grid : List α) (fuel : Nat) (jsonFile folder : String)
    (disk disk' : List (String × List Char)) (r : Except Err Unit)
    (h : runTextOn grid fuel F jsonFile folder disk = some (r, disk')) :
    disk' = disk ∨ r = .ok () ∧ ∃ name out, disk' = (name, out) :: disk := by
  obtain ⟨b1, b2⟩ := C82_bad_configuration F grid fuel jsonFile folder disk
  cases hl : lookup disk (F.canon jsonFile) with
  | none =>
    rw [b1 hl] at h
    cases h
    exact Or.inl rfl
  | some text =>
    by_cases hj : ∃ data, JsonText F.float (universal text) data
    · obtain ⟨data, hj⟩ := hj
      obtain ⟨o, h1, _, h3⟩ := C82_inputs_determine_result F grid fuel jsonFile folder disk disk text text data hl hl hj hj (fun _ _ => rfl)
      rw [h1] at h
      obtain ⟨⟨r', new⟩, ho, he⟩ := Option.map_eq_some_iff.mp h
      cases he
      obtain ⟨h4, h5⟩ := h3 _ _ ho
      by_cases hr : r' = .ok ()
      · match new, h4 with
        | [], _ => exact Or.inl rfl
        | [(n, o)], _ => exact Or.inr ⟨hr, n, o, rfl⟩
      · left; rw [h5 hr]; rfl
    · rw [b2 text hl hj] at h
      cases h
      exact Or.inl rfl

/-- **C82**: running again gives the same file again, unless the result was written over one of the files the run reads. -/
theorem C82_rerun (F : TextFormat α) (grid : List α) (fuel : Nat) (jsonFile folder : String)
    (disk : List (String × List Char)) (r : Except Err Unit) (name : String) (out text : List Char) (data : Json α)
    (h : runTextOn grid fuel F jsonFile folder disk = some (r, (name, out) :: disk))
    (hl : lookup disk (F.canon jsonFile) = some text) (hd : JsonText F.float (universal text) data)
    (hn : F.canon jsonFile ≠ name) (hm : ∀ path, MayRead data path → F.canon path ≠ name) :
    runTextOn grid fuel F jsonFile folder ((name, out) :: disk) = some (r, (name, out) :: (name, out) :: disk) := by
  obtain ⟨o, h1, h2, _⟩ := C82_inputs_determine_result F grid fuel jsonFile folder disk ((name, out) :: disk) text text data hl
    (by rw [lookup_cons_eq, if_neg (fun e => hn e.symm)]; exact hl) hd hd
    (fun path hp => by rw [lookup_cons_eq, if_neg (fun e => hm path hp e.symm)])
  rw [h1] at h
  obtain ⟨⟨r', new⟩, ho, he⟩ := Option.map_eq_some_iff.mp h
  rw [Prod.mk.injEq] at he
  obtain ⟨rfl, he⟩ := he
  rw [h2, ho]
  dsimp only at he
  have : new = [(name, out)] := List.append_cancel_right (he.trans (List.singleton_append).symm)
  rw [Option.map_some, this]
  rfl

/-- **C82** on the example: written to another folder, the run can be repeated. -/
example (windows : Bool) (n : Nat) (hn1 : 1 ≤ n) (hn3 : n ≤ 3) : ∃ out,
    runTextOn [1] n (milliFormat windows) "still.json" "out" ((resultFileName "out" "example" "1", out) :: milliDisk n) =
      some (.ok (), (resultFileName "out" "example" "1", out) :: (resultFileName "out" "example" "1", out) :: milliDisk n) := by
  obtain ⟨out, h⟩ := milli_run windows n hn1 hn3 "out"
  have hl : lookup (milliDisk n) ((milliFormat windows).canon "still.json") = some (jsonDump milliText (stillConfig 3 n (.int 1))) := by
    show lookup (milliDisk n) "still.json" = _
    unfold milliDisk; rw [lookup_cons_eq, if_pos rfl]
  have hload : jsonLoad (milliFormat windows).float (jsonDump milliText (stillConfig 3 n (.int 1))) = .ok (stillConfig 3 n (.int 1)) := by
    have := C79_round_trip milliFloat milliText (stillConfig 3 n (.int 1)) (still_distinct _ _ _)
      (still_nums _ _ (fun a b => milli_readable _ (still_milli n a b)) _ _) false
    simp only [stored, Bool.false_eq_true, if_false] at this
    exact this
  have hname : resultFileName "out" "example" "1" = "out/results_flowgo_example_1m3s.csv" := by decide
  refine ⟨out, C82_rerun (milliFormat windows) [1] n "still.json" "out" (milliDisk n) _ _ out _ _ h hl
    ((jsonLoads_iff _ _ _).mp hload) ?_ ?_⟩
  · rw [hname]; show "still.json" ≠ _; decide
  · intro path hp
    rw [hname]
    show path ≠ _
    have hs : ∀ v, TopEntry (stillConfig 3 n (.int 1)) "slope_file" v → v = .str "slope.txt" := by
      rintro v ⟨top, he, hv⟩
      unfold stillConfig exConfigR exConfigM at he
      rw [Json.obj.injEq] at he
      rw [← he, lookup_cons_eq, if_neg (by decide), lookup_cons_eq, if_pos rfl] at hv
      exact (Option.some.inj hv).symm
    rcases hp with h | ⟨h, _⟩ | h
    · have := hs _ h
      cases this
      decide
    · cases hs _ h
    · rw [h]; decide

end PyFlowGo
