import Verif.Proofs.Schedule
import Verif.Props.SweepText
/-
  Which files runs and sweeps touch, and what is on the disk at every moment.
-/
set_option linter.unusedSectionVars false
namespace PyFlowGo
open Spec
variable {α : Type} [Add α] [Sub α] [Mul α] [Neg α] [OfScientific α] [PyNum α]

section
variable (F : TextFormat α) (jsonFile : String) {R : String → Prop} (hj : R (F.canon jsonFile))
include hj

theorem reader_only {β : Type} (f : Json α → Except Err β) : OnlyReads R (readerProg F jsonFile f) := by
  unfold readerProg
  refine ⟨hj, fun t => ?_⟩
  cases t with
  | none => trivial
  | some text =>
    dsimp only
    split <;> trivial

theorem named_only {β : Type} (names : List String) (name : Json α) (f : Json α → Except Err β) :
    OnlyReads R (namedProg names name (readerProg F jsonFile f)) := by
  unfold namedProg
  split
  · exact reader_only F jsonFile hj f
  · trivial

theorem fluxes_only (ks : List FluxKind) : OnlyReads R (fluxesProg F jsonFile ks) := by
  induction ks with
  | nil => trivial
  | cons k ks ih => exact (reader_only F jsonFile hj _).andThen fun f => ih.andThen fun fs => trivial

variable (hc : R (F.canon "resources/crust_temperature_profile.txt"))
include hc

theorem crust_only (name : Json α) : OnlyReads R (crustProg F jsonFile name) := by
  unfold crustProg
  split
  · refine ⟨hc, fun t => ?_⟩
    dsimp only
    split
    · trivial
    · split
      · trivial
      · exact reader_only F jsonFile hj _
  · exact named_only F jsonFile hj _ _ _

theorem factory_only : OnlyReads R (factoryProg F jsonFile) := by
  unfold factoryProg
  refine (reader_only F jsonFile hj _).andThen fun n => ?_
  refine (named_only F jsonFile hj _ _ _).andThen fun cryst => ?_
  refine (reader_only F jsonFile hj _).andThen fun air => ?_
  refine (named_only F jsonFile hj _ _ _).andThen fun ves => ?_
  refine (named_only F jsonFile hj _ _ _).andThen fun melt => ?_
  refine (named_only F jsonFile hj _ _ _).andThen fun rel => ?_
  refine (named_only F jsonFile hj _ _ _).andThen fun bub => ?_
  refine (named_only F jsonFile hj _ _ _).andThen fun yld => ?_
  refine (reader_only F jsonFile hj _).andThen fun lava => ?_
  refine (named_only F jsonFile hj _ _ _).andThen fun cover => ?_
  refine (crust_only F jsonFile hj hc _).andThen fun crust => ?_
  refine OnlyReads.andThen trivial fun kinds => ?_
  exact (fluxes_only F jsonFile hj _).andThen fun fluxes => trivial

end

/-- The preparation of a run reads the files named in the specification and writes none. -/
theorem prepare_along (F : TextFormat α) (jsonFile : String) (d : Files) {Q : Action → Files → Prop}
    (hr : ∀ q, RunReads F d jsonFile q → Q (.reads q) d) (hd : Q .done d) : Along Q (prepareProg F jsonFile) d := by
  have hj : Q (.reads (F.canon jsonFile)) d := hr _ (Or.inl rfl)
  have hread : ∀ {β : Type} (f : Json α → Except Err β) {R : String → Prop}, R (F.canon jsonFile) → OnlyReads R (readerProg F jsonFile f) :=
    fun f R h => reader_only F jsonFile h f
  have hconf : ∀ {β : Type} (f : Json α → Except Err β), Along Q (readerProg F jsonFile f) d :=
    fun f => (hread f (R := fun q => q = F.canon jsonFile) rfl).along d (fun q hq => hr q (Or.inl hq)) hd
  have hdisk : ∀ {β : Type} (f : Json α → Except Err β), ((readerProg F jsonFile f).run d).2 = d :=
    fun f => (hread f (R := fun q => q = F.canon jsonFile) rfl).disk d
  unfold prepareProg
  dsimp only
  unfold Prog.andThen
  refine Along.bind (hconf _).weaken ?_
  rw [hdisk]
  cases hcfg : ((readerProg F jsonFile (readRunConfig (textEnv F []))).run d).1 with
  | error e => exact hd
  | ok cfg =>
    have hdata : ∃ data : Json α, Holds F d jsonFile data ∧ TopEntry data "slope_file" cfg.slopeFile := by
      unfold readerProg Prog.run at hcfg
      cases hl : lookup d (F.canon jsonFile) with
      | none => rw [hl] at hcfg; cases hcfg
      | some text =>
        rw [hl] at hcfg
        dsimp only at hcfg
        cases hjl : jsonLoad F.float text with
        | error e => rw [hjl] at hcfg; cases hcfg
        | ok data =>
          rw [hjl] at hcfg
          dsimp only at hcfg
          have hcfg : readRunConfig (textEnv F []) data = .ok cfg := hcfg
          refine ⟨data, ⟨text, hl, (jsonLoad_iff _ _ _).mp hjl⟩, ?_⟩
          unfold readRunConfig at hcfg
          simp only [bind_ok_iff, pure_ok_iff] at hcfg
          obtain ⟨_, _, _, _, s, hs, _, _, _, _, _, _, rfl⟩ := hcfg
          dsimp only
          unfold requireTop at hs
          obtain ⟨b, _, hs⟩ := bind_ok_iff.mp hs
          split at hs
          · exact (get_ok_iff _ _ _).mp hs
          · cases hs
    obtain ⟨data, hdata, hslope⟩ := hdata
    have hloose : ∀ {σ : Type} {p : Prog σ}, OnlyReads (fun q => q = F.canon jsonFile ∨ q = F.canon "resources/crust_temperature_profile.txt") p →
        Along Q p d := fun {σ p} hp => hp.along d (fun q hq => hr q (hq.imp id fun h => ⟨data, _, hdata, Or.inr (Or.inr rfl), h⟩)) hd
    dsimp only
    refine Along.bind (hconf _).weaken ?_
    rw [hdisk]
    cases ((readerProg F jsonFile (buildTerrain (textEnv F []))).run d).1 with
    | error e => exact hd
    | ok t0 =>
      dsimp only
      have hsl : Along Q (slopeProg F t0 cfg.slopeFile) d ∧ ((slopeProg F t0 cfg.slopeFile).run d).2 = d := by
        refine ⟨?_, by rw [slope_run]⟩
        unfold slopeProg
        cases hv : cfg.slopeFile with
        | str s =>
          refine ⟨hr _ (Or.inr ⟨data, s, hdata, Or.inl (hv ▸ hslope), rfl⟩), hd⟩
        | null =>
          refine ⟨hr _ (Or.inr ⟨data, _, hdata, Or.inr (Or.inl ⟨hv ▸ hslope, rfl⟩), rfl⟩), hd⟩
        | _ => exact hd
      refine Along.bind hsl.1.weaken ?_
      rw [hsl.2]
      cases ((slopeProg F t0 cfg.slopeFile).run d).1 with
      | error e => exact hd
      | ok t =>
        dsimp only
        apply hloose
        refine (factory_only F jsonFile (Or.inl rfl) (Or.inr rfl)).andThen fun models => ?_
        refine (hread _ (Or.inl rfl)).andThen fun p => ?_
        refine (hread _ (Or.inl rfl)).andThen fun q => ?_
        exact OnlyReads.andThen trivial fun st => trivial

theorem prepare_disk (F : TextFormat α) (jsonFile : String) (d : Files) : ((prepareProg F jsonFile).run d).2 = d := by
  have h : Along (fun a e => e = d ∧ ∀ q, a ≠ .writes q) (prepareProg F jsonFile) d :=
    prepare_along F jsonFile d (fun q _ => ⟨rfl, fun _ h => by cases h⟩) ⟨rfl, fun _ h => by cases h⟩
  obtain ⟨N, hN⟩ := alone_ends (prepareProg F jsonFile) d
  have := (h.at N).1
  rw [hN N le_rfl] at this
  exact this

/-- A file that is being written: every other file is as before, the file itself as before or a beginning of the new text. -/
structure PartSaved (d : Files) (p : String) (text : List Char) (e : Files) : Prop where
  others : ∀ q, q ≠ p → lookup e q = lookup d q
  file : lookup e p = lookup d p ∨ ∃ n, lookup e p = some (text.take n)

theorem PartSaved.write {d : Files} {p : String} {text : List Char} {e : Files} (h : PartSaved d p text e) (n : Nat) :
    PartSaved d p text (writeFile e p (text.take n)) := by
  refine ⟨fun q hq => ?_, Or.inr ⟨n, by rw [lookup_writeFile, if_pos rfl]⟩⟩
  rw [lookup_writeFile, if_neg (fun h => hq h.symm), h.others q hq]

theorem save_along {ρ : Type} {Q : Action → Files → Prop} (flush : List Char → List Nat) (p : String) (text : List Char) (k : Prog ρ) (d : Files)
    (hQ : ∀ e, PartSaved d p text e → Q (.writes p) e) (hk : ∀ e, SameDisk e (writeFile d p text) → Along Q k e) :
    Along Q (Prog.save flush p text k) d := by
  unfold Prog.save
  have h0 : PartSaved d p text d := ⟨fun _ _ => rfl, Or.inl rfl⟩
  have h1 : PartSaved d p text (writeFile d p []) := h0.write 0
  refine ⟨hQ _ h0, ?_⟩
  generalize writeFile d p [] = e at h1
  generalize flush text = ns
  induction ns generalizing e with
  | nil =>
    refine ⟨hQ _ h1, hk _ fun q => ?_⟩
    rw [lookup_writeFile, lookup_writeFile]
    split
    · rfl
    · rename_i h
      exact h1.others q fun h' => h h'.symm
  | cons n ns ih => exact ⟨hQ _ h1, ih _ (h1.write n)⟩

/-- What a run does at every moment: what it touches, and what is on the disk. -/
structure RunMoment (grid : List α) (fuel : Nat) (F : TextFormat α) (jsonFile folder : String) (d : Files) (a : Action) (e : Files) : Prop where
  reads : ∀ q, a = .reads q → RunReads F d jsonFile q
  writes : ∀ q, a = .writes q → RunWrites F d jsonFile folder q
  files : ∀ q, lookup e q = lookup d q ∨ RunWrites F d jsonFile folder q ∧
    ∃ out n, runTextOn grid fuel F jsonFile folder d = some (.ok (), (q, out) :: d) ∧ lookup e q = some (out.take n)

/-- What a run that was prepared and has a table writes. -/
theorem prepared_writes (grid : List α) (fuel : Nat) (F : TextFormat α) (jsonFile folder : String) (d : Files) {pr : Prepared α}
    (hp : ((prepareProg F jsonFile).run d).1 = .ok pr) {u : Unit} {w : World α}
    (hs : simulateOn grid fuel pr.integrator pr.world = some (.ok u, w)) {t : CsvTable (Cell α)} (hw : writeValues w.log = .ok (some t)) :
    RunWrites F d jsonFile folder (F.canon (resultFileName folder (pr.cfg.lavaName.show (textEnv F [])) (pr.cfg.rate.show (textEnv F [])))) ∧
    runTextOn grid fuel F jsonFile folder d = some (.ok (), (F.canon (resultFileName folder (pr.cfg.lavaName.show (textEnv F [])) (pr.cfg.rate.show (textEnv F []))),
      stored F.windows (t.text F.str)) :: d) := by
  cases hl : lookup d (F.canon jsonFile) with
  | none =>
    have : (prepareProg F jsonFile).run d = (.error .fileNotFound, d) := by
      unfold prepareProg Prog.andThen
      rw [Prog.run_bind]
      have : (readerProg F jsonFile (readRunConfig (textEnv F []))).run d = (.error .fileNotFound, d) := by
        unfold readerProg Prog.run; rw [hl]; rfl
      dsimp only
      rw [this]
      rfl
    rw [this] at hp
    cases hp
  | some text =>
    cases hjl : jsonLoad F.float text with
    | error e =>
      have : (prepareProg F jsonFile).run d = (.error e, d) := by
        unfold prepareProg Prog.andThen
        rw [Prog.run_bind]
        have : (readerProg F jsonFile (readRunConfig (textEnv F []))).run d = (.error e, d) := by
          unfold readerProg Prog.run; rw [hl]; dsimp only; rw [hjl]; rfl
        dsimp only
        rw [this]
        rfl
      rw [this] at hp
      cases hp
    | ok data =>
      rw [prepare_run F jsonFile d text data hl hjl] at hp
      have hp : prepare (textEnv F d) data [] = .ok pr := hp
      refine ⟨?_, run_writes grid fuel F jsonFile folder d hl hjl hp hs hw⟩
      unfold prepare at hp
      obtain ⟨cfg, hcfg, hp⟩ := bind_ok_iff.mp hp
      simp only [bind_ok_iff, pure_ok_iff] at hp
      obtain ⟨_, _, _, _, _, _, _, _, _, _, _, _, rfl⟩ := hp
      unfold readRunConfig at hcfg
      simp only [bind_ok_iff, pure_ok_iff] at hcfg
      obtain ⟨rate, hrate, lava, hlava, _, _, _, _, _, _, _, _, rfl⟩ := hcfg
      refine ⟨data, rate, lava, ⟨text, hl, (jsonLoad_iff _ _ _).mp hjl⟩, (get_ok_iff _ _ _).mp hrate, ?_, rfl⟩
      unfold requireTop at hlava
      obtain ⟨b, _, hlava⟩ := bind_ok_iff.mp hlava
      split at hlava
      · exact (get_ok_iff _ _ _).mp hlava
      · cases hlava

theorem run_along (grid : List α) (fuel : Nat) (F : TextFormat α) (flush : List Char → List Nat) (jsonFile folder : String) (d : Files) :
    Along (RunMoment grid fuel F jsonFile folder d) (runProg grid fuel F flush jsonFile folder) d := by
  have hstill : ∀ a : Action, (∀ q, a = .reads q → RunReads F d jsonFile q) → (∀ q, a ≠ .writes q) → RunMoment grid fuel F jsonFile folder d a d :=
    fun a h1 h2 => ⟨h1, fun q h => absurd h (h2 q), fun q => Or.inl rfl⟩
  have hdone : RunMoment grid fuel F jsonFile folder d .done d := hstill _ (fun q h => by cases h) fun q h => by cases h
  unfold runProg
  refine Along.bind ((prepare_along F jsonFile d (fun q hq => hstill _ (fun q' h => by cases h; exact hq) fun q h => by cases h) hdone).weaken) ?_
  rw [prepare_disk]
  cases hp : ((prepareProg F jsonFile).run d).1 with
  | error e => exact hdone
  | ok pr =>
    dsimp only
    unfold finishProg
    cases hs : simulateOn grid fuel pr.integrator pr.world with
    | none => exact hdone
    | some o =>
      obtain ⟨o, w⟩ := o
      cases o with
      | error e => exact hdone
      | ok u =>
        dsimp only
        cases hw : writeValues w.log with
        | error e => exact hdone
        | ok t =>
          cases t with
          | none => exact hdone
          | some t =>
            dsimp only
            have hwr := prepared_writes grid fuel F jsonFile folder d hp hs hw
            generalize F.canon (resultFileName folder (pr.cfg.lavaName.show (textEnv F [])) (pr.cfg.rate.show (textEnv F []))) = p at *
            generalize stored F.windows (t.text F.str) = out at *
            obtain ⟨hwr, hval⟩ := hwr
            have hpart : ∀ e, PartSaved d p out e → ∀ q, lookup e q = lookup d q ∨ RunWrites F d jsonFile folder q ∧
                ∃ out n, runTextOn grid fuel F jsonFile folder d = some (.ok (), (q, out) :: d) ∧ lookup e q = some (out.take n) := by
              intro e he q
              by_cases hq : q = p
              · subst hq
                rcases he.file with h | ⟨n, h⟩
                · exact Or.inl h
                · exact Or.inr ⟨hwr, out, n, hval, h⟩
              · exact Or.inl (he.others q hq)
            refine save_along flush p out _ d (fun e he => ⟨(fun q h => by cases h), (fun q h => by cases h; exact hwr), hpart e he⟩) fun e he => ?_
            refine ⟨(fun q h => by cases h), (fun q h => by cases h), hpart e ⟨fun q hq => ?_, Or.inr ⟨out.length, ?_⟩⟩⟩
            · rw [he, lookup_writeFile, if_neg fun h => hq h.symm]
            · rw [he, lookup_writeFile, if_pos rfl, List.take_length]

end PyFlowGo
