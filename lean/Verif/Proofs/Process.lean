import Verif.Model.Process
import Verif.Proofs.JsonParse
import Verif.Props.SweepText
/-
  A process that runs alone does what the run (RunText.lean) and the sweep (SweepText.lean) do.
-/
set_option linter.unusedSectionVars false
namespace PyFlowGo
open Spec
variable {α : Type} [Add α] [Sub α] [Mul α] [Neg α] [OfScientific α] [PyNum α]

abbrev Disk := List (String × List Char)

theorem Prog.run_bind {ρ σ : Type} (p : Prog ρ) (f : ρ → Prog σ) (d : Disk) :
    (p.bind f).run d = (f (p.run d).1).run (p.run d).2 := by
  induction p generalizing d with
  | ret r => rfl
  | read q k ih => exact ih _ _
  | write q t k ih => exact ih _

/-- The process leaves the disk alone and has the outcome `x`. -/
theorem andThen_run {ρ σ : Type} {p : Prog (Except Err ρ)} {f : ρ → Prog (Except Err σ)} {d : Disk} {x : Except Err ρ} {y : ρ → Except Err σ}
    (hp : p.run d = (x, d)) (hf : ∀ r, x = .ok r → (f r).run d = (y r, d)) : (p.andThen f).run d = (x >>= y, d) := by
  unfold Prog.andThen
  rw [Prog.run_bind, hp]
  cases x with
  | error e => rfl
  | ok r => exact hf r rfl

theorem reader_run {β : Type} {F : TextFormat α} {jsonFile : String} {d : Disk} {text : List Char} {data : Json α}
    (h1 : lookup d (F.canon jsonFile) = some text) (h2 : jsonLoad F.float text = .ok data) (f : Json α → Except Err β) :
    (readerProg F jsonFile f).run d = (f data, d) := by
  unfold readerProg Prog.run
  rw [h1]
  dsimp only
  rw [h2]
  rfl

theorem named_run {β : Type} {names : List String} {name : Json α} {p : Prog (Except Err β)} {d : Disk} {x : Except Err β}
    (hp : p.run d = (x, d)) (hx : (∀ s ∈ names, name.isStr s = false) → x = .error .nameError) : (namedProg names name p).run d = (x, d) := by
  unfold namedProg
  split
  · exact hp
  · rename_i h
    rw [hx]
    · rfl
    · intro s hs
      rw [Bool.eq_false_iff]
      intro hc
      exact h (List.any_eq_true.mpr ⟨s, hs, hc⟩)

section
variable (F : TextFormat α) (jsonFile : String) (d : Disk) (text : List Char) (data : Json α)

theorem slope_run (t : Terrain α) (s : Json α) : (slopeProg F t s).run d = (loadSlope (textEnv F d) t s, d) := by
  unfold slopeProg loadSlope
  cases s <;> try rfl
  all_goals
    dsimp only
    unfold Prog.run
    cases h : ((lookup d (F.canon _)).bind fun t => (slopeRows F.float (dataLines t)).toOption) with
    | none => 
      have h' := h
      simp only [textEnv]
      rw [h']
      rfl
    | some lines =>
      have h' := h
      simp only [textEnv]
      rw [h']
      rfl

variable (h1 : lookup d (F.canon jsonFile) = some text) (h2 : jsonLoad F.float text = .ok data)
include h1 h2

theorem crust_run (name : Json α) : (crustProg F jsonFile name).run d = (buildCrust (textEnv F d) data name, d) := by
  unfold crustProg
  by_cases hf : name.isStr "field" = true
  · rw [if_pos hf]
    have hn : ∀ s, s ≠ "field" → name.isStr s = false := by
      intro s hs
      unfold Json.isStr at *
      cases name with
      | str t => simp only [beq_iff_eq, beq_eq_false_iff_ne] at *; rw [hf]; exact fun e => hs e.symm
      | _ => rfl
    have e1 := hn "constant" (by decide)
    have e2 := hn "hon" (by decide)
    have e3 := hn "bimodal" (by decide)
    unfold Prog.run
    have hb : ∀ env : Env α, buildCrust env data name = match env.crustFile "resources/crust_temperature_profile.txt" with
      | none => .error .fileNotFound
      | some rows => do
        let sp ← readCrustField rows
        requireKey data "thermal_parameters" "crust_temperature_file"
        let t ← getF env data "thermal_parameters" "crust_temperature"
        return .field t (some sp) := by
      intro env
      unfold buildCrust
      rw [e1, e2, e3, hf]
      rfl
    rw [hb]
    show (match (textEnv F d).crustFile "resources/crust_temperature_profile.txt" with
      | none => (Prog.ret (.error .fileNotFound) : Prog (Except Err (CrustModel α)))
      | some rows => match readCrustField rows with
        | .error e => (Prog.ret (.error e) : Prog (Except Err (CrustModel α)))
        | .ok _ => readerProg F jsonFile fun data => buildCrust { textEnv F [] with crustFile := fun _ => some rows } data name).run d = _
    cases hc : (textEnv F d).crustFile "resources/crust_temperature_profile.txt" with
    | none => rfl
    | some rows =>
      dsimp only
      cases hr : readCrustField rows with
      | error e => rfl
      | ok sp =>
        dsimp only
        rw [reader_run h1 h2, hb]
        dsimp only
        rw [hr]
        rfl
  · rw [if_neg hf]
    have hf := Bool.eq_false_iff.mpr hf
    have hsame : buildCrust (textEnv F []) data name = buildCrust (textEnv F d) data name := by
      unfold buildCrust
      rw [hf]
      rfl
    refine named_run ((reader_run h1 h2 _).trans (by rw [hsame])) fun hn => ?_
    unfold buildCrust
    rw [hn "constant" (by simp), hn "hon" (by simp), hn "bimodal" (by simp), hf]
    rfl

theorem fluxes_run (ks : List FluxKind) : (fluxesProg F jsonFile ks).run d = (ks.mapM (readFlux (textEnv F d) data), d) := by
  induction ks with
  | nil => rfl
  | cons k ks ih =>
    rw [List.mapM_cons]
    unfold fluxesProg
    refine andThen_run ((reader_run h1 h2 _).trans ?_) fun f _ => andThen_run ih fun fs _ => rfl
    cases k <;> rfl

theorem factory_run : (factoryProg F jsonFile).run d = (factory (textEnv F d) data, d) := by
  unfold factoryProg factory
  refine andThen_run (reader_run h1 h2 _) fun n _ => ?_
  refine andThen_run (named_run (reader_run h1 h2 _) ?_) fun cryst _ => ?_
  · intro hn
    unfold buildCryst
    rw [hn "basic" (by simp), hn "bimodal" (by simp), hn "bimodal_f_temp" (by simp), hn "melts" (by simp)]
    rfl
  refine andThen_run (reader_run h1 h2 _) fun air _ => ?_
  refine andThen_run (named_run (reader_run h1 h2 _) ?_) fun ves _ => ?_
  · intro hn
    unfold buildVes
    rw [hn "constant" (by simp), hn "bimodal" (by simp), hn "variable" (by simp), hn "variable_bimodal" (by simp), hn "poly" (by simp)]
    rfl
  refine andThen_run (named_run (reader_run h1 h2 _) ?_) fun melt _ => ?_
  · intro hn
    unfold buildMelt
    rw [hn "basic" (by simp), hn "shaw" (by simp), hn "vft" (by simp)]
    rfl
  refine andThen_run (named_run (reader_run h1 h2 _) ?_) fun rel _ => ?_
  · intro hn
    unfold buildRel
    dsimp only
    rw [hn "er" (by simp), hn "kd" (by simp), hn "mp" (by simp), hn "mp_mueller" (by simp), hn "mader" (by simp), hn "bll" (by simp),
      hn "ptp1" (by simp), hn "ptp2" (by simp), hn "ptp3" (by simp), hn "costa1" (by simp), hn "costa2" (by simp)]
    rfl
  refine andThen_run (named_run (reader_run h1 h2 _) ?_) fun bub _ => ?_
  · intro hn
    unfold buildBub
    rw [hn "rigid" (by simp), hn "deformable" (by simp), hn "no" (by simp), hn "mader" (by simp)]
    rfl
  refine andThen_run (named_run (reader_run h1 h2 _) ?_) fun yld _ => ?_
  · intro hn
    unfold buildYield
    rw [hn "basic" (by simp), hn "dragoni" (by simp), hn "dragoni-alone" (by simp), hn "ryerson" (by simp), hn "bll" (by simp)]
    rfl
  refine andThen_run (reader_run h1 h2 _) fun lava _ => ?_
  refine andThen_run (named_run (reader_run h1 h2 _) ?_) fun cover _ => ?_
  · intro hn
    unfold buildCover
    rw [hn "basic" (by simp), hn "bimodal" (by simp)]
    rfl
  refine andThen_run (crust_run F jsonFile d text data h1 h2 _) fun crust _ => ?_
  refine andThen_run rfl fun kinds _ => ?_
  exact andThen_run (fluxes_run F jsonFile d text data h1 h2 _) fun fluxes _ => rfl

theorem loadSlope_keeps {env : Env α} {t t' : Terrain α} {s : Json α} (h : loadSlope env t s = .ok t') :
    t'.effusionRateInit = t.effusionRateInit ∧ t'.width = t.width ∧ t'.depth = t.depth := by
  unfold loadSlope at h
  dsimp only at h
  split at h
  · cases h
  · split at h
    · cases h
    · unfold Terrain.readSlope at h
      simp only [bind_ok_iff, pure_ok_iff] at h
      obtain ⟨_, _, h⟩ := h
      split at h
      · obtain ⟨_, _, h⟩ := bind_ok_iff.mp h
        obtain ⟨_, _, h⟩ := bind_ok_iff.mp h
        rw [← pure_ok_iff.mp h]
        exact ⟨rfl, rfl, rfl⟩
      · obtain ⟨_, _, h⟩ := bind_ok_iff.mp h
        obtain ⟨_, _, h⟩ := bind_ok_iff.mp h
        rw [← pure_ok_iff.mp h]
        exact ⟨rfl, rfl, rfl⟩

theorem prepare_run : (prepareProg F jsonFile).run d = (prepare (textEnv F d) data [], d) := by
  unfold prepareProg prepare
  refine andThen_run (reader_run h1 h2 _) fun cfg _ => ?_
  refine andThen_run (reader_run h1 h2 _) fun t0 ht0 => ?_
  refine andThen_run (slope_run F d t0 _) fun t ht => ?_
  refine andThen_run (factory_run F jsonFile d text data h1 h2) fun models _ => ?_
  obtain ⟨k1, k2, k3⟩ := loadSlope_keeps F jsonFile d text data h1 h2 ht
  have hi : integratorEntries (textEnv F []) data = .ok (t.effusionRateInit, t.width, t.depth) := by
    unfold buildTerrain at ht0
    simp only [bind_ok_iff, pure_ok_iff] at ht0
    obtain ⟨v, g1, e, g2, dep, g3, wid, g4, gr, _, ml, _, act, _, sp, _, ds, _, rfl⟩ := ht0
    have e0 : integratorEntries (textEnv F []) data = integratorEntries (textEnv F d) data := rfl
    rw [e0]
    unfold integratorEntries
    rw [g1, ok_bind, g2, ok_bind, g4, ok_bind, g3, ok_bind, k1, k2, k3]
    rfl
  have e1 : ∀ y : Except Err (Prepared α), y = (Except.ok (t.effusionRateInit, t.width, t.depth) >>= fun _ => y) := fun y => rfl
  rw [e1 (getF (textEnv F d) data "lava_state" "position" >>= _)]
  refine andThen_run ((reader_run h1 h2 _).trans (by rw [hi])) fun p hp => ?_
  obtain rfl := Except.ok.inj hp
  dsimp only
  have e2 : ∀ y : α → α → Except Err (Prepared α), (getF (textEnv F d) data "lava_state" "position" >>= fun pos =>
      getF (textEnv F d) data "lava_state" "time" >>= fun time => y pos time) = (stateEntries (textEnv F []) data >>= fun q => y q.1 q.2) := by
    intro y
    unfold stateEntries
    have e3 : ∀ s k, getF (textEnv F d) data s k = getF (textEnv F []) data s k := fun s k => rfl
    rw [e3, e3]
    cases getF (textEnv F []) data "lava_state" "position" with
    | error e => rfl
    | ok pos =>
      cases getF (textEnv F []) data "lava_state" "time" <;> rfl
  rw [e2]
  refine andThen_run (reader_run h1 h2 _) fun q _ => ?_
  exact andThen_run rfl fun st _ => rfl

end

/-- Two disks with the same files. -/
def SameDisk (d d' : Disk) : Prop := ∀ p, lookup d p = lookup d' p

theorem lookup_writeFile (d : Disk) (p q : String) (t : List Char) : lookup (writeFile d p t) q = if p = q then some t else lookup d q := by
  unfold writeFile
  rw [lookup_cons_eq]

theorem SameDisk.write {d d' : Disk} (h : SameDisk d d') (p : String) (t : List Char) : SameDisk (writeFile d p t) (writeFile d' p t) := by
  intro q
  rw [lookup_writeFile, lookup_writeFile, h q]

theorem SameDisk.overwrite (d : Disk) (p : String) (t t' : List Char) : SameDisk (writeFile (writeFile d p t) p t') (writeFile d p t') := by
  intro q
  rw [lookup_writeFile, lookup_writeFile, lookup_writeFile]
  split <;> rfl

theorem SameDisk.trans {a b c : Disk} (h : SameDisk a b) (h' : SameDisk b c) : SameDisk a c := fun p => (h p).trans (h' p)
theorem SameDisk.symm {a b : Disk} (h : SameDisk a b) : SameDisk b a := fun p => (h p).symm
theorem SameDisk.refl (a : Disk) : SameDisk a a := fun _ => rfl

/-- A process sees only the files. -/
theorem Prog.run_same {ρ : Type} (p : Prog ρ) {d d' : Disk} (h : SameDisk d d') : (p.run d).1 = (p.run d').1 ∧ SameDisk (p.run d).2 (p.run d').2 := by
  induction p generalizing d d' with
  | ret r => exact ⟨rfl, h⟩
  | read q k ih =>
    unfold Prog.run
    rw [h q]
    exact ih _ h
  | write q t k ih => exact ih (h.write q t)

theorem save_run {ρ : Type} (flush : List Char → List Nat) (p : String) (t : List Char) (k : Prog ρ) (d : Disk) :
    ((Prog.save flush p t k).run d).1 = (k.run (writeFile d p t)).1 ∧
    SameDisk ((Prog.save flush p t k).run d).2 (k.run (writeFile d p t)).2 := by
  unfold Prog.save
  have key : ∀ (ns : List Nat) (d' : Disk), SameDisk (writeFile d' p t) (writeFile d p t) →
      ((ns.foldr (fun n k => Prog.write p (t.take n) k) (.write p t k)).run d').1 = (k.run (writeFile d p t)).1 ∧
      SameDisk ((ns.foldr (fun n k => Prog.write p (t.take n) k) (.write p t k)).run d').2 (k.run (writeFile d p t)).2 := by
    intro ns
    induction ns with
    | nil => intro d' h; exact k.run_same h
    | cons n ns ih =>
      intro d' h
      refine ih (writeFile d' p (t.take n)) ?_
      exact (SameDisk.overwrite _ _ _ _).trans h
  exact key _ _ (SameDisk.overwrite _ _ _ _)

/-- The run on its own: the outcome of `runTextOn`, and the same files. -/
theorem run_solo (grid : List α) (fuel : Nat) (F : TextFormat α) (flush : List Char → List Nat) (jsonFile folder : String) (d : Disk) :
    ∃ d', SameDisk ((runProg grid fuel F flush jsonFile folder).run d).2 d' ∧
      runTextOn grid fuel F jsonFile folder d = ((runProg grid fuel F flush jsonFile folder).run d).1.map fun r => (r, d') := by
  unfold runProg
  rw [Prog.run_bind]
  have hbad : ∀ e, (readerProg F jsonFile (readRunConfig (textEnv F []))).run d = (.error e, d) → (prepareProg F jsonFile).run d = (.error e, d) := by
    intro e h
    unfold prepareProg Prog.andThen
    rw [Prog.run_bind]
    dsimp only
    rw [h]
    rfl
  unfold runTextOn
  cases hl : lookup d (F.canon jsonFile) with
  | none =>
    rw [hbad .fileNotFound (by unfold readerProg Prog.run; rw [hl]; rfl)]
    exact ⟨d, SameDisk.refl d, rfl⟩
  | some text =>
    dsimp only
    cases hj : jsonLoad F.float text with
    | error e =>
      rw [hbad e (by unfold readerProg Prog.run; rw [hl]; dsimp only; rw [hj]; rfl)]
      exact ⟨d, SameDisk.refl d, rfl⟩
    | ok data =>
      dsimp only
      rw [prepare_run F jsonFile d text data hl hj]
      unfold runOn newRunner
      have hlk : lookup [(F.canon jsonFile, data)] ((textEnv F d).canon jsonFile) = some data := by
        rw [lookup_cons_eq]
        exact if_pos rfl
      dsimp only
      rw [hlk]
      dsimp only
      have hclear : Log.clear ([] : Log (Cell α)) = [] := rfl
      rw [hclear]
      cases hp : prepare (textEnv F d) data [] with
      | error e => exact ⟨d, SameDisk.refl d, rfl⟩
      | ok pr =>
        dsimp only
        unfold finishProg
        cases hs : simulateOn grid fuel pr.integrator pr.world with
        | none => exact ⟨d, SameDisk.refl d, rfl⟩
        | some o =>
          obtain ⟨o, w⟩ := o
          cases o with
          | error e => exact ⟨d, SameDisk.refl d, rfl⟩
          | ok u =>
            dsimp only
            cases hw : writeValues w.log with
            | error e => exact ⟨d, SameDisk.refl d, rfl⟩
            | ok t =>
              cases t with
              | none => exact ⟨d, SameDisk.refl d, rfl⟩
              | some t =>
                dsimp only
                obtain ⟨a, b⟩ := save_run flush (F.canon (resultFileName folder (pr.cfg.lavaName.show (textEnv F [])) (pr.cfg.rate.show (textEnv F []))))
                  (stored F.windows (t.text F.str)) (.ret ((some (Except.ok ()) : Option (Except Err Unit)))) d
                refine ⟨_, b, ?_⟩
                rw [a]
                have e : ∀ j : Json α, j.show (textEnv F d) = j.show (textEnv F []) := fun j => by cases j <;> rfl
                rw [e, e]
                rfl

/-- A run that gets to the end and has a table writes it. -/
theorem run_writes (grid : List α) (fuel : Nat) (F : TextFormat α) (jsonFile folder : String) (d : Disk) {text : List Char} {data : Json α}
    (hl : lookup d (F.canon jsonFile) = some text) (hj : jsonLoad F.float text = .ok data) {pr : Prepared α}
    (hp : prepare (textEnv F d) data [] = .ok pr) {u : Unit} {w : World α} (hs : simulateOn grid fuel pr.integrator pr.world = some (.ok u, w))
    {t : CsvTable (Cell α)} (hw : writeValues w.log = .ok (some t)) :
    runTextOn grid fuel F jsonFile folder d = some (.ok (), (F.canon (resultFileName folder (pr.cfg.lavaName.show (textEnv F []))
      (pr.cfg.rate.show (textEnv F []))), stored F.windows (t.text F.str)) :: d) := by
  unfold runTextOn
  rw [hl]
  dsimp only
  rw [hj]
  dsimp only
  unfold runOn newRunner
  have hlk : lookup [(F.canon jsonFile, data)] ((textEnv F d).canon jsonFile) = some data := by
    rw [lookup_cons_eq]
    exact if_pos rfl
  dsimp only
  rw [hlk]
  dsimp only
  have hclear : Log.clear ([] : Log (Cell α)) = [] := rfl
  rw [hclear, hp]
  dsimp only
  rw [hs]
  dsimp only
  rw [hw]
  dsimp only
  have e : ∀ j : Json α, j.show (textEnv F d) = j.show (textEnv F []) := fun j => by cases j <;> rfl
  rw [e, e]
  rfl

theorem textEnv_same (F : TextFormat α) {d d' : Disk} (h : SameDisk d d') : textEnv F d = textEnv F d' := by
  unfold textEnv
  congr 1 <;> funext p <;> rw [h]

/-- The run sees only the files. -/
theorem runTextOn_same (grid : List α) (fuel : Nat) (F : TextFormat α) (jsonFile folder : String) {d d' : Disk} (h : SameDisk d d') :
    (runTextOn grid fuel F jsonFile folder d = none ∧ runTextOn grid fuel F jsonFile folder d' = none) ∨
    ∃ r e e', runTextOn grid fuel F jsonFile folder d = some (r, e) ∧ runTextOn grid fuel F jsonFile folder d' = some (r, e') ∧ SameDisk e e' := by
  obtain ⟨a, a1, a2⟩ := run_solo grid fuel F (fun _ => []) jsonFile folder d
  obtain ⟨b, b1, b2⟩ := run_solo grid fuel F (fun _ => []) jsonFile folder d'
  obtain ⟨c1, c2⟩ := (runProg grid fuel F (fun _ => []) jsonFile folder).run_same h
  rw [a2, b2, ← c1]
  cases ((runProg grid fuel F (fun _ => []) jsonFile folder).run d).1 with
  | none => exact Or.inl ⟨rfl, rfl⟩
  | some r => exact Or.inr ⟨r, a, b, rfl, rfl, (a1.symm.trans c2).trans b1⟩

/-- The loop of a sweep on its own. -/
theorem sweepLoop_solo (grid : List α) (fuel : Nat) (F : TextFormat α) (sn : α → List Char) (flush : List Char → List Nat) (base : Json α)
    (working folder : String) : ∀ (rates : List Int) (names : List String) (d e : Disk), SameDisk d e →
    ∃ d', SameDisk ((sweepLoopProg grid fuel F sn flush base working folder rates names).run d).2 d' ∧
      sweepTextLoop grid fuel F sn base working folder rates names e =
        ((sweepLoopProg grid fuel F sn flush base working folder rates names).run d).1.map fun r => (r, d') := by
  intro rates
  induction rates with
  | nil => intro names d e h; exact ⟨e, h, rfl⟩
  | cons r rest ih =>
    intro names d e h
    unfold sweepLoopProg sweepTextLoop
    cases hset : base.set "effusion_rate_init" (.int r) with
    | error x => exact ⟨e, h, rfl⟩
    | ok data =>
      dsimp only
      generalize hk : ((runProg grid fuel F flush working folder).bind fun
          | none => .ret none
          | some (.error e) => .ret (some (.error e))
          | some (.ok _) =>
            match data.get "lava_name" with
            | .error e => .ret (some (.error e))
            | .ok nm =>
              sweepLoopProg grid fuel F sn flush base working folder rest
                (names ++ [resultFileName folder (nm.show (textEnv F [])) (toString r)])) = k
      obtain ⟨s1, s2⟩ := save_run flush (F.canon working) (stored F.windows (jsonDump sn data)) k d
      have hw : SameDisk (writeFile d (F.canon working) (stored F.windows (jsonDump sn data))) (writeFile e (F.canon working) (stored F.windows (jsonDump sn data))) :=
        h.write _ _
      generalize writeFile d (F.canon working) (stored F.windows (jsonDump sn data)) = d1 at *
      generalize writeFile e (F.canon working) (stored F.windows (jsonDump sn data)) = e1 at *
      rw [s1]
      suffices hsuff : ∃ d', SameDisk (k.run d1).2 d' ∧ (match runTextOn grid fuel F working folder e1 with
          | none => none
          | some (Except.error x, disk2) => some (Except.error x, disk2)
          | some (Except.ok _, disk2) =>
            match data.get "lava_name" with
            | .error x => some (.error x, disk2)
            | .ok nm => sweepTextLoop grid fuel F sn base working folder rest
                (names ++ [resultFileName folder (nm.show (textEnv F disk2)) (toString r)]) disk2) = (k.run d1).1.map fun r => (r, d') by
        obtain ⟨d', a, b⟩ := hsuff
        exact ⟨d', s2.trans a, b⟩
      subst hk
      rw [Prog.run_bind]
      obtain ⟨a, a1, a2⟩ := run_solo grid fuel F flush working folder d1
      obtain ⟨c1, c2⟩ | ⟨o, x, y, c1, c2, c3⟩ := runTextOn_same grid fuel F working folder hw
      · rw [c1] at a2
        rw [c2]
        cases hr : ((runProg grid fuel F flush working folder).run d1).1 with
        | some o => rw [hr] at a2; cases a2
        | none => exact ⟨_, SameDisk.refl _, rfl⟩
      · rw [c1] at a2
        rw [c2]
        cases hr : ((runProg grid fuel F flush working folder).run d1).1 with
        | none => rw [hr] at a2; cases a2
        | some o' =>
          rw [hr] at a2
          obtain ⟨rfl, rfl⟩ := Prod.mk.inj (Option.some.inj a2)
          have hsame := a1.trans c3
          cases o with
          | error x => exact ⟨y, hsame, rfl⟩
          | ok u =>
            dsimp only
            cases hn : data.get "lava_name" with
            | error x => exact ⟨y, hsame, rfl⟩
            | ok nm =>
              dsimp only
              have e : nm.show (textEnv F y) = nm.show (textEnv F []) := by cases nm <;> rfl
              rw [e]
              exact ih _ _ _ hsame

/-- The sweep on its own. -/
theorem sweep_solo (grid : List α) (fuel : Nat) (F : TextFormat α) (sn : α → List Char) (flush : List Char → List Nat)
    (jsonFile folder : String) (first last step : Int) (d : Disk) :
    ∃ d', SameDisk ((sweepProg grid fuel F sn flush jsonFile folder first last step).run d).2 d' ∧
      sweepText grid fuel F sn jsonFile folder first last step d =
        ((sweepProg grid fuel F sn flush jsonFile folder first last step).run d).1.map fun r => (r, d') := by
  unfold sweepProg sweepText Prog.run
  cases hl : lookup d (F.canon jsonFile) with
  | none => exact ⟨d, SameDisk.refl d, rfl⟩
  | some text =>
    dsimp only
    cases hj : jsonLoad F.float text with
    | error e => exact ⟨d, SameDisk.refl d, rfl⟩
    | ok base =>
      dsimp only
      cases hr : sweepRates first last step with
      | error e => exact ⟨d, SameDisk.refl d, rfl⟩
      | ok rates => exact sweepLoop_solo grid fuel F sn flush base _ folder rates [] d d (SameDisk.refl d)

end PyFlowGo
