import Verif.Spec.Renamed
import Verif.Props.Reordered
import Verif.Props.RelevantText
import Verif.Props.SweepRange
/-
  C139: the name of the lava, the folder and the name of the configuration file only decide where the result goes.
-/
set_option linter.unusedSectionVars false
set_option linter.unusedSimpArgs false
namespace PyFlowGo
open Spec
variable {α : Type} [Add α] [Sub α] [Mul α] [Neg α] [OfScientific α] [PyNum α]

theorem renamed_lookup {d d' name name' : Json α} (h : Renamed d d' name name') :
    ∃ l l', d = .obj l ∧ d' = .obj l' ∧ (∀ k, k ≠ "lava_name" → lookup l k = lookup l' k) ∧ lookup l "lava_name" = some name ∧ lookup l' "lava_name" = some name' := by
  obtain ⟨ho, ⟨l, rfl, a⟩, ⟨l', rfl, a'⟩⟩ := h
  have top : ∀ (l : List (String × Json α)) k x, TopEntry (.obj l) k x ↔ lookup l k = some x := by
    intro l k x
    constructor
    · rintro ⟨m, h, hx⟩
      injection h with h
      rw [h]; exact hx
    · intro h; exact ⟨l, rfl, h⟩
  refine ⟨l, l', rfl, rfl, fun k hk => ?_, a, a'⟩
  have e : ∀ x, lookup l k = some x ↔ lookup l' k = some x := by
    intro x
    rw [← top, ← top, ho k hk]
  cases h : lookup l k with
  | some x => exact ((e x).mp h).symm
  | none =>
    cases h' : lookup l' k with
    | none => rfl
    | some x => rw [(e x).mpr h'] at h; cases h

theorem renamed_get {d d' name name' : Json α} (h : Renamed d d' name name') (k : String) (hk : k ≠ "lava_name") : d.get k = d'.get k := by
  obtain ⟨l, l', rfl, rfl, e, _⟩ := renamed_lookup h
  unfold Json.get
  dsimp only
  rw [e k hk]

theorem renamed_has {d d' name name' : Json α} (h : Renamed d d' name name') (k : String) : d.has k = d'.has k := by
  obtain ⟨l, l', rfl, rfl, e, a, a'⟩ := renamed_lookup h
  unfold Json.has
  dsimp only
  by_cases hk : k = "lava_name"
  · subst hk; rw [a, a']; rfl
  · rw [e k hk]

theorem renamed_getF {d d' name name' : Json α} (h : Renamed d d' name name') (env : Env α) (sec key : String) (hk : sec ≠ "lava_name") :
    getF env d sec key = getF env d' sec key := by
  unfold getF; rw [renamed_get h sec hk]

theorem renamed_getJ {d d' name name' : Json α} (h : Renamed d d' name name') (sec key : String) (hk : sec ≠ "lava_name") :
    getJ d sec key = getJ d' sec key := by
  unfold getJ; rw [renamed_get h sec hk]

theorem renamed_require {d d' name name' : Json α} (h : Renamed d d' name name') (sec key : String) (hk : sec ≠ "lava_name") :
    requireKey d sec key = requireKey d' sec key := by
  unfold requireKey; rw [renamed_get h sec hk]

theorem renamed_factory {d d' name name' : Json α} (h : Renamed d d' name name') (env : Env α) : factory env d = factory env d' := by
  have e1 : readNames d = readNames d' := by
    unfold readNames; simp (disch := decide) only [renamed_getJ h]
  have e2 : buildCryst env d = buildCryst env d' := by
    funext n; unfold buildCryst; simp (disch := decide) only [renamed_getJ h, renamed_getF h, renamed_get h, renamed_has h, renamed_require h]
  have e3 : buildAir env d = buildAir env d' := by
    unfold buildAir; simp (disch := decide) only [renamed_getJ h, renamed_getF h, renamed_get h, renamed_has h, renamed_require h]
  have e4 : buildVes env d = buildVes env d' := by
    funext n; unfold buildVes; simp (disch := decide) only [renamed_getJ h, renamed_getF h, renamed_get h, renamed_has h, renamed_require h]
  have e5 : buildMelt env d = buildMelt env d' := by
    funext n; unfold buildMelt; simp (disch := decide) only [renamed_getJ h, renamed_getF h, renamed_get h, renamed_has h, renamed_require h]
  have e6 : buildRel env d = buildRel env d' := by
    funext n v m; unfold buildRel; simp (maxSteps := 2000000) (disch := decide) only [renamed_getJ h, renamed_getF h, renamed_get h, renamed_has h, renamed_require h]
  have e7 : buildBub env d = buildBub env d' := by
    funext n v m r; unfold buildBub; simp (disch := decide) only [renamed_getJ h, renamed_getF h, renamed_get h, renamed_has h, renamed_require h]
  have e8 : buildYield env d = buildYield env d' := by
    funext n; unfold buildYield; simp (disch := decide) only [renamed_getJ h, renamed_getF h, renamed_get h, renamed_has h, renamed_require h]
  have e9 : buildLava env d = buildLava env d' := by
    funext a b c e f; unfold buildLava; simp (disch := decide) only [renamed_getJ h, renamed_getF h, renamed_get h, renamed_has h, renamed_require h]
  have e10 : buildCover env d = buildCover env d' := by
    funext n; unfold buildCover; simp (disch := decide) only [renamed_getJ h, renamed_getF h, renamed_get h, renamed_has h, renamed_require h]
  have e11 : buildCrust env d = buildCrust env d' := by
    funext n; unfold buildCrust; simp (disch := decide) only [renamed_getJ h, renamed_getF h, renamed_get h, renamed_has h, renamed_require h]
  have e12 : readFlux env d = readFlux env d' := by
    funext n; unfold readFlux; simp (disch := decide) only [renamed_getJ h, renamed_getF h, renamed_get h, renamed_has h, renamed_require h]
  unfold factory
  rw [e1, e2, e3, e4, e5, e6, e7, e8, e9, e10, e11, e12]

/-- **C139**. The preparation of a run under two names: the same exception, or the same run with another name. -/
theorem C139_preparation (env : Env α) (d d' name name' : Json α) (h : Renamed d d' name name') (log : Log (Cell α)) :
    prepare env d' log = (prepare env d log).map fun pr => { pr with cfg := { pr.cfg with lavaName := name' } } := by
  obtain ⟨l, l', rfl, rfl, _, a, a'⟩ := renamed_lookup h
  have h2 : buildTerrain env (.obj l) = buildTerrain env (.obj l') := by
    unfold buildTerrain readSmoothingPoints
    simp (disch := decide) only [renamed_getJ h, renamed_getF h, renamed_get h, renamed_has h, renamed_require h]
  have h3 : rawMassConservation (.obj l) = rawMassConservation (.obj l') := by
    unfold rawMassConservation
    simp (disch := decide) only [renamed_getJ h, renamed_getF h, renamed_get h, renamed_has h, renamed_require h]
  have h4 : ∀ k, k ≠ "lava_name" → requireTop (.obj l) k = requireTop (.obj l') k := by
    intro k hk
    unfold requireTop
    rw [renamed_has h, renamed_get h k hk]
  have h5 : requireTop (.obj l) "lava_name" = .ok name := by
    simp [requireTop, Json.has, Json.get, a]
  have h6 : requireTop (.obj l') "lava_name" = .ok name' := by
    simp [requireTop, Json.has, Json.get, a']
  have h1 : readRunConfig env (.obj l') = (readRunConfig env (.obj l)).map fun c => { c with lavaName := name' } := by
    unfold readRunConfig
    rw [h5, h6, h3, h4 "slope_file" (by decide), h4 "step_size" (by decide), renamed_get h "effusion_rate_init" (by decide)]
    cases Json.get (.obj l') "effusion_rate_init" with
    | error e => rfl
    | ok r =>
      cases requireTop (.obj l') "slope_file" with
      | error e => rfl
      | ok s =>
        cases requireTop (.obj l') "step_size" with
        | error e => rfl
        | ok z =>
          simp only [ok_bind]
          cases Json.toFloat env z with
          | error e => rfl
          | ok z' =>
            cases rawMassConservation (.obj l') with
            | error e => rfl
            | ok m => rfl
  unfold prepare
  rw [h1, h2, renamed_factory h, renamed_getF h env _ _ (by decide), renamed_getF h env _ _ (by decide)]
  cases readRunConfig env (.obj l) with
  | error e => rfl
  | ok c =>
    simp only [Except.map, ok_bind]
    cases buildTerrain env (.obj l') with
    | error e => rfl
    | ok t =>
      simp only [ok_bind]
      cases loadSlope env t c.slopeFile with
      | error e => rfl
      | ok t1 =>
        simp only [ok_bind]
        cases factory env (.obj l') with
        | error e => rfl
        | ok m =>
          simp only [ok_bind]
          cases getF env (.obj l') "lava_state" "position" with
          | error e => rfl
          | ok x =>
            simp only [ok_bind]
            cases getF env (.obj l') "lava_state" "time" with
            | error e => rfl
            | ok y =>
              simp only [ok_bind]
              cases initialState m t1 x y with
              | error e => rfl
              | ok s => rfl

theorem renamed_cfg {env : Env α} {d name rate : Json α} {log : Log (Cell α)} {pr : Prepared α} (hpr : prepare env d log = .ok pr)
    (hrate : TopEntry d "effusion_rate_init" rate) (hname : TopEntry d "lava_name" name) : pr.cfg.rate = rate ∧ pr.cfg.lavaName = name := by
  obtain ⟨l, rfl, a⟩ := hrate
  obtain ⟨l', e, b⟩ := hname
  injection e with e
  subst e
  have h1 : Json.get (.obj l) "effusion_rate_init" = .ok rate := by simp [Json.get, a]
  have h2 : requireTop (.obj l) "lava_name" = .ok name := by simp [requireTop, Json.has, Json.get, b]
  have hc : ∀ c, readRunConfig env (.obj l) = .ok c → c.rate = rate ∧ c.lavaName = name := by
    intro c hc
    unfold readRunConfig at hc
    rw [h1, h2] at hc
    simp only [bind, Except.bind] at hc
    repeat' split at hc
    all_goals first
      | (cases hc; exact ⟨rfl, rfl⟩)
      | cases hc
  unfold prepare at hpr
  cases hrc : readRunConfig env (.obj l) with
  | error e => rw [hrc] at hpr; cases hpr
  | ok c =>
    rw [hrc] at hpr
    have : pr.cfg = c := by
      simp only [bind, Except.bind] at hpr
      repeat' split at hpr
      all_goals first
        | (cases hpr; rfl)
        | cases hpr
    rw [this]
    exact hc c hrc

/-- **C139**. A run of one lava under two names, from two configuration files, into two folders: the same outcome, the same log and the same table, each in its own place; every other result
    is kept. -/
theorem C139_run (grid : List α) (fuel : Nat) (env : Env α) (jsonFile jsonFile' folder folder' : String) (p p' : Proc α) (d d' name name' rate : Json α)
    (hd : lookup p.json (env.canon jsonFile) = some d) (hd' : lookup p'.json (env.canon jsonFile') = some d') (hlog : p'.log = p.log)
    (h : Renamed d d' name name') (hrate : TopEntry d "effusion_rate_init" rate) :
    ∃ outcome : Option (Except Err Unit × Log (Cell α) × Option (CsvTable (Cell α))),
      runOn grid fuel env jsonFile folder p = outcome.map (fun o => (o.1, { p with
        log := o.2.1, results := (o.2.2.map fun t => (env.canon (resultFileName folder (name.show env) (rate.show env)), t)).toList ++ p.results })) ∧
      runOn grid fuel env jsonFile' folder' p' = outcome.map (fun o => (o.1, { p' with
        log := o.2.1, results := (o.2.2.map fun t => (env.canon (resultFileName folder' (name'.show env) (rate.show env)), t)).toList ++ p'.results })) := by
  obtain ⟨json, results, log⟩ := p
  obtain ⟨json', results', log'⟩ := p'
  dsimp only at hlog hd hd'
  subst hlog
  have hp := C139_preparation env d d' name name' h log'
  unfold runOn
  dsimp only
  rw [hd, hd']
  dsimp only
  rw [hp]
  cases hpr : prepare env d log' with
  | error e => exact ⟨some (.error e, log', none), rfl, rfl⟩
  | ok pr =>
    obtain ⟨e1, e2⟩ := renamed_cfg hpr hrate h.first
    simp only [Except.map]
    cases simulateOn grid fuel pr.integrator pr.world with
    | none => exact ⟨none, rfl, rfl⟩
    | some o =>
      obtain ⟨r, w⟩ := o
      cases r with
      | error e => exact ⟨some (.error e, w.log, none), rfl, rfl⟩
      | ok _ =>
        dsimp only
        cases writeValues w.log with
        | error e => exact ⟨some (.error e, w.log, none), rfl, rfl⟩
        | ok t =>
          cases t with
          | none => exact ⟨some (.ok (), w.log, none), rfl, rfl⟩
          | some t =>
            dsimp only
            rw [e1, e2]
            exact ⟨some (.ok (), w.log, some t), rfl, rfl⟩

theorem renamed_mayRead {d d' name name' : Json α} (h : Renamed d d' name name') (path : String) : MayRead d path ↔ MayRead d' path := by
  unfold MayRead
  rw [h.others "slope_file" (by decide), h.others "slope_file" (by decide)]

/-- **C139**, from text to text: two configuration files that differ in the name of the lava, on two disks with the same profiles: both runs write the same text, each to its own place, or both
    end alike without writing. -/
theorem C139_text (F : TextFormat α) (grid : List α) (fuel : Nat) (jsonFile jsonFile' folder folder' : String)
    (disk disk' : List (String × List Char)) (text text' : List Char) (d d' name name' rate : Json α)
    (hl : lookup disk (F.canon jsonFile) = some text) (hl' : lookup disk' (F.canon jsonFile') = some text')
    (hd : JsonText F.float (universal text) d) (hd' : JsonText F.float (universal text') d')
    (hp : ∀ path, MayRead d path → (lookup disk (F.canon path)).map dataLines = (lookup disk' (F.canon path)).map dataLines)
    (h : Renamed d d' name name') (hrate : TopEntry d "effusion_rate_init" rate) :
    ∃ outcome : Option (Except Err Unit × Option (List Char)),
      runTextOn grid fuel F jsonFile folder disk = outcome.map (fun o => (o.1,
        (o.2.map fun t => (F.canon (resultFileName folder (name.show (textEnv F disk)) (rate.show (textEnv F disk))), t)).toList ++ disk)) ∧
      runTextOn grid fuel F jsonFile' folder' disk' = outcome.map (fun o => (o.1,
        (o.2.map fun t => (F.canon (resultFileName folder' (name'.show (textEnv F disk')) (rate.show (textEnv F disk'))), t)).toList ++ disk')) := by
  rw [runTextOn_value F grid fuel jsonFile folder disk text d hl hd, runTextOn_value F grid fuel jsonFile' folder' disk' text' d' hl' hd']
  rw [runOn_disks F grid fuel jsonFile' folder' disk disk' d' (fun path hm => hp path ((renamed_mayRead h path).mpr hm))]
  obtain ⟨o, a, b⟩ := C139_run grid fuel (textEnv F disk) jsonFile jsonFile' folder folder' (newRunner ⟨[(F.canon jsonFile, d)], [], []⟩) (newRunner ⟨[(F.canon jsonFile', d')], [], []⟩)
    d d' name name' rate (by show lookup [(F.canon jsonFile, d)] (F.canon jsonFile) = _; rw [lookup_cons_eq, if_pos rfl])
    (by show lookup [(F.canon jsonFile', d')] (F.canon jsonFile') = _; rw [lookup_cons_eq, if_pos rfl]) rfl h hrate
  rw [a, b]
  refine ⟨o.map fun x => (x.1, x.2.2.map fun t => stored F.windows (t.text F.str)), ?_, ?_⟩
  · cases o with
    | none => rfl
    | some x =>
      obtain ⟨r, lg, t⟩ := x
      cases t <;> rfl
  · cases o with
    | none => rfl
    | some x =>
      obtain ⟨r, lg, t⟩ := x
      cases t <;> rfl

theorem renamed_rate {t₁ t₂ d₁ d₂ name₁ name₂ : Json α} {r : Int} (ht : ∀ k, k ≠ "effusion_rate_init" → k ≠ "lava_name" → ∀ x, TopEntry t₁ k x ↔ TopEntry t₂ k x)
    (hn₁ : TopEntry t₁ "lava_name" name₁) (hn₂ : TopEntry t₂ "lava_name" name₂) (h₁ : WithRate t₁ d₁ r) (h₂ : WithRate t₂ d₂ r) : Renamed d₁ d₂ name₁ name₂ := by
  obtain ⟨a₁, b₁⟩ := h₁
  obtain ⟨a₂, b₂⟩ := h₂
  refine ⟨fun k hk x => ?_, (b₁ _ (by decide) _).mpr hn₁, (b₂ _ (by decide) _).mpr hn₂⟩
  by_cases hr : k = "effusion_rate_init"
  · subst hr
    constructor
    · intro h; rw [topEntry_unique h a₁]; exact a₂
    · intro h; rw [topEntry_unique h a₂]; exact a₁
  · rw [b₁ k hr, b₂ k hr, ht k hr hk]

/-- Runs of two sweeps for the same rate, of one lava under two names, write the same text or write nothing. -/
theorem standAlone_renamed (grid : List α) (fuel : Nat) (F : TextFormat α) (t₁ t₂ name₁ name₂ : Json α) (working₁ working₂ folder₁ folder₂ : String)
    (disk₁ disk₂ : List (String × List Char)) (r : Int) (o₁ o₂ : TextRun α)
    (ht : ∀ k, k ≠ "effusion_rate_init" → k ≠ "lava_name" → ∀ x, TopEntry t₁ k x ↔ TopEntry t₂ k x)
    (hn₁ : TopEntry t₁ "lava_name" name₁) (hn₂ : TopEntry t₂ "lava_name" name₂)
    (hsafe₁ : ∀ path, MayRead t₁ path → F.canon path ≠ F.canon working₁) (hsafe₂ : ∀ path, MayRead t₂ path → F.canon path ≠ F.canon working₂)
    (hp : ∀ path, MayRead t₁ path → (lookup disk₁ (F.canon path)).map dataLines = (lookup disk₂ (F.canon path)).map dataLines)
    (h₁ : StandAlone grid fuel F t₁ working₁ folder₁ disk₁ r o₁) (h₂ : StandAlone grid fuel F t₂ working₂ folder₂ disk₂ r o₂) :
    ∃ result : Option (List Char), o₁.files = (result.map fun t => (F.canon (resultFileName folder₁ (name₁.show (textEnv F disk₁)) (toString r)), t)).toList ∧
      o₂.files = (result.map fun t => (F.canon (resultFileName folder₂ (name₂.show (textEnv F disk₂)) (toString r)), t)).toList := by
  have hm : ∀ path, MayRead t₁ path → MayRead t₂ path := by
    intro path h
    unfold MayRead at h ⊢
    rwa [← ht "slope_file" (by decide) (by decide), ← ht "slope_file" (by decide) (by decide)]
  have keep : ∀ (working : String) (disk : List (String × List Char)) (text : List Char) path, F.canon path ≠ F.canon working →
      (lookup ((F.canon working, text) :: disk) (F.canon path)).map dataLines = (lookup disk (F.canon path)).map dataLines := by
    intro working disk text path h
    rw [lookup_cons_eq, if_neg (fun e => h e.symm)]
  have l : ∀ (working : String) (disk : List (String × List Char)) (text : List Char), lookup ((F.canon working, text) :: disk) (F.canon working) = some text := by
    intro working disk text
    rw [lookup_cons_eq, if_pos rfl]
  have r₁ := h₁.same ((F.canon working₁, o₁.configText) :: disk₁) o₁.configText (l _ _ _) h₁.text (fun path h => keep _ _ _ path (hsafe₁ path h))
  have r₂ := h₂.same ((F.canon working₂, o₂.configText) :: disk₂) o₂.configText (l _ _ _) h₂.text (fun path h => keep _ _ _ path (hsafe₂ path h))
  obtain ⟨o, q₁, q₂⟩ := C139_text F grid fuel working₁ working₂ folder₁ folder₂ ((F.canon working₁, o₁.configText) :: disk₁) ((F.canon working₂, o₂.configText) :: disk₂)
    o₁.configText o₂.configText o₁.config o₂.config name₁ name₂ (.int r) (l _ _ _) (l _ _ _) h₁.text h₂.text
    (by
      intro path h
      have h := (mayRead_rate h₁.config path).mp h
      rw [keep _ _ _ path (hsafe₁ path h), keep _ _ _ path (hsafe₂ path (hm path h)), hp path h])
    (renamed_rate ht hn₁ hn₂ h₁.config h₂.config) h₁.config.1
  rw [r₁] at q₁
  rw [r₂] at q₂
  cases o with
  | none => cases q₁
  | some o =>
    rw [Option.map_some, Option.some.injEq, Prod.mk.injEq] at q₁ q₂
    exact ⟨o.2, List.append_cancel_right q₁.2, List.append_cancel_right q₂.2⟩

/-- A sweep that ends normally, and one of its rates. -/
theorem sweep_one_rate (grid : List α) (fuel : Nat) (F : TextFormat α) (sn : α → List Char) (jsonFile folder : String) (first last step : Int)
    (disk disk' : List (String × List Char)) (text : List Char) (t lava : Json α)
    (hl : lookup disk (F.canon jsonFile) = some text) (ht : JsonText F.float (universal text) t) (hn : NumsAll (Readable F.float sn) t)
    (hlv : TopEntry t "lava_name" lava)
    (hsafe : ∀ path, MayRead t path → F.canon path ≠ F.canon (workingFile jsonFile folder) ∧
      ∀ r : Int, F.canon path ≠ F.canon (resultFileName folder (lava.show (textEnv F disk)) (toString r)))
    (hdistinct : DistinctFiles (textEnv F disk) folder (lava.show (textEnv F disk)))
    (hwork : ∀ r : Int, F.canon (resultFileName folder (lava.show (textEnv F disk)) (toString r)) ≠ F.canon (workingFile jsonFile folder))
    (names : List String) (h : sweepText grid fuel F sn jsonFile folder first last step disk = some (.ok names, disk'))
    (r : Int) (rates : List Int) (hr : sweepRates first last step = .ok rates) (hmem : r ∈ rates) :
    ∃ o, StandAlone grid fuel F t (workingFile jsonFile folder) folder disk r o ∧
      ((o.files = [] ∧ lookup disk' (F.canon (resultFileName folder (lava.show (textEnv F disk)) (toString r))) =
          lookup disk (F.canon (resultFileName folder (lava.show (textEnv F disk)) (toString r)))) ∨
        ∃ out, o.files = [(F.canon (resultFileName folder (lava.show (textEnv F disk)) (toString r)), out)] ∧
          lookup disk' (F.canon (resultFileName folder (lava.show (textEnv F disk)) (toString r))) = some out) := by
  have s : ∀ path, MayRead t path → F.canon path ≠ F.canon (workingFile jsonFile folder) ∧
      ∀ lava, TopEntry t "lava_name" lava → ∀ r : Int, F.canon path ≠ F.canon (resultFileName folder (lava.show (textEnv F disk)) (toString r)) := by
    intro path hpath
    obtain ⟨a, b⟩ := hsafe path hpath
    refine ⟨a, fun lv hlv' q => ?_⟩
    rw [topEntry_unique hlv' hlv]
    exact b q
  obtain ⟨rates', lava', _, e1, e2, e3, _, _, _⟩ := C89_sweep_on_texts grid fuel F sn jsonFile folder first last step disk disk' text t hl ht hn s names h
  rw [hr, Except.ok.injEq] at e1
  subst e1
  have elv : lava' = lava := topEntry_unique (e2 (List.ne_nil_of_mem hmem)) hlv
  subst elv
  obtain ⟨rates'', runs, f1, f2, f3⟩ := C89_results_on_disk grid fuel F sn jsonFile folder first last step disk disk' text t hl ht hn s
    (fun lv hlv' => by rw [topEntry_unique hlv' hlv]; exact hdistinct) (fun lv hlv' q => by rw [topEntry_unique hlv' hlv]; exact hwork q) names h
  rw [hr, Except.ok.injEq] at f1
  subst f1
  rw [e3] at f3
  obtain ⟨o, g1, g2⟩ := forall₂_map_mem f2 f3 r hmem
  exact ⟨o, g1, g2⟩

/-- **C139**, for sweeps: two sweeps that end normally, of templates that differ at most in the name of the lava, in the effusion rate and in the order of their entries, from two files, into two
    folders, on disks with the same profiles. A rate that is in both ranges has the same result in both, each under its own name, or neither sweep writes one for it. -/
theorem C139_sweep (grid : List α) (fuel : Nat) (F : TextFormat α) (sn : α → List Char) (jsonFile₁ jsonFile₂ folder₁ folder₂ : String)
    (first₁ last₁ step₁ first₂ last₂ step₂ : Int) (disk₁ disk₁' disk₂ disk₂' : List (String × List Char)) (text₁ text₂ : List Char) (t₁ t₂ name₁ name₂ : Json α)
    (hl₁ : lookup disk₁ (F.canon jsonFile₁) = some text₁) (hl₂ : lookup disk₂ (F.canon jsonFile₂) = some text₂)
    (ht₁ : JsonText F.float (universal text₁) t₁) (ht₂ : JsonText F.float (universal text₂) t₂)
    (hnums₁ : NumsAll (Readable F.float sn) t₁) (hnums₂ : NumsAll (Readable F.float sn) t₂)
    (ht : ∀ k, k ≠ "effusion_rate_init" → k ≠ "lava_name" → ∀ x, TopEntry t₁ k x ↔ TopEntry t₂ k x)
    (hn₁ : TopEntry t₁ "lava_name" name₁) (hn₂ : TopEntry t₂ "lava_name" name₂)
    (hp : ∀ path, MayRead t₁ path → (lookup disk₁ (F.canon path)).map dataLines = (lookup disk₂ (F.canon path)).map dataLines)
    (hsafe₁ : ∀ path, MayRead t₁ path → F.canon path ≠ F.canon (workingFile jsonFile₁ folder₁) ∧
      ∀ r : Int, F.canon path ≠ F.canon (resultFileName folder₁ (name₁.show (textEnv F disk₁)) (toString r)))
    (hsafe₂ : ∀ path, MayRead t₂ path → F.canon path ≠ F.canon (workingFile jsonFile₂ folder₂) ∧
      ∀ r : Int, F.canon path ≠ F.canon (resultFileName folder₂ (name₂.show (textEnv F disk₂)) (toString r)))
    (hdistinct₁ : DistinctFiles (textEnv F disk₁) folder₁ (name₁.show (textEnv F disk₁)))
    (hdistinct₂ : DistinctFiles (textEnv F disk₂) folder₂ (name₂.show (textEnv F disk₂)))
    (hwork₁ : ∀ r : Int, F.canon (resultFileName folder₁ (name₁.show (textEnv F disk₁)) (toString r)) ≠ F.canon (workingFile jsonFile₁ folder₁))
    (hwork₂ : ∀ r : Int, F.canon (resultFileName folder₂ (name₂.show (textEnv F disk₂)) (toString r)) ≠ F.canon (workingFile jsonFile₂ folder₂))
    (names₁ names₂ : List String)
    (h₁ : sweepText grid fuel F sn jsonFile₁ folder₁ first₁ last₁ step₁ disk₁ = some (.ok names₁, disk₁'))
    (h₂ : sweepText grid fuel F sn jsonFile₂ folder₂ first₂ last₂ step₂ disk₂ = some (.ok names₂, disk₂'))
    (r : Int) (rates₁ rates₂ : List Int) (hr₁ : sweepRates first₁ last₁ step₁ = .ok rates₁) (hr₂ : sweepRates first₂ last₂ step₂ = .ok rates₂)
    (hm₁ : r ∈ rates₁) (hm₂ : r ∈ rates₂) (file₁ file₂ : String)
    (hfile₁ : file₁ = F.canon (resultFileName folder₁ (name₁.show (textEnv F disk₁)) (toString r)))
    (hfile₂ : file₂ = F.canon (resultFileName folder₂ (name₂.show (textEnv F disk₂)) (toString r))) :
    (∃ result, lookup disk₁' file₁ = some result ∧ lookup disk₂' file₂ = some result) ∨
    (lookup disk₁' file₁ = lookup disk₁ file₁ ∧ lookup disk₂' file₂ = lookup disk₂ file₂) := by
  obtain ⟨o₁, a₁, b₁⟩ := sweep_one_rate grid fuel F sn jsonFile₁ folder₁ first₁ last₁ step₁ disk₁ disk₁' text₁ t₁ name₁ hl₁ ht₁ hnums₁ hn₁ hsafe₁ hdistinct₁ hwork₁ names₁ h₁ r rates₁ hr₁ hm₁
  obtain ⟨o₂, a₂, b₂⟩ := sweep_one_rate grid fuel F sn jsonFile₂ folder₂ first₂ last₂ step₂ disk₂ disk₂' text₂ t₂ name₂ hl₂ ht₂ hnums₂ hn₂ hsafe₂ hdistinct₂ hwork₂ names₂ h₂ r rates₂ hr₂ hm₂
  obtain ⟨result, c₁, c₂⟩ := standAlone_renamed grid fuel F t₁ t₂ name₁ name₂ _ _ folder₁ folder₂ disk₁ disk₂ r o₁ o₂ ht hn₁ hn₂ (fun path h => (hsafe₁ path h).1) (fun path h => (hsafe₂ path h).1) hp a₁ a₂
  rw [← hfile₁] at b₁ c₁
  rw [← hfile₂] at b₂ c₂
  rcases b₁ with ⟨n₁, k₁⟩ | ⟨out₁, n₁, k₁⟩ <;> rcases b₂ with ⟨n₂, k₂⟩ | ⟨out₂, n₂, k₂⟩
  · exact .inr ⟨k₁, k₂⟩
  · rw [n₁] at c₁
    rw [n₂] at c₂
    cases result with
    | none => cases c₂
    | some x => cases c₁
  · rw [n₁] at c₁
    rw [n₂] at c₂
    cases result with
    | none => cases c₁
    | some x => cases c₂
  · rw [n₁] at c₁
    rw [n₂] at c₂
    cases result with
    | none => cases c₁
    | some x =>
      have e₁ := (Prod.mk.inj (List.cons.inj c₁).1).2
      have e₂ := (Prod.mk.inj (List.cons.inj c₂).1).2
      exact .inl ⟨x, by rw [← e₁]; exact k₁, by rw [← e₂]; exact k₂⟩

end PyFlowGo
