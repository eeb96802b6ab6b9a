import Verif.Proofs.Restart
import Verif.Spec.Saving
import Verif.Props.CutJson
import Verif.Props.Gui
/-
  A configuration file that is saved while a run reads it.
-/
set_option linter.unusedSectionVars false
namespace PyFlowGo
open Spec
variable {α : Type} [Add α] [Sub α] [Mul α] [Neg α] [OfScientific α] [PyNum α]

/-- Only writes are left, none of them to `c`. -/
def OnlyWrites {ρ : Type} (c : String) : Prog ρ → Prop
  | .ret _ => True
  | .read _ _ => False
  | .write q _ k => q ≠ c ∧ OnlyWrites c k

/-- A process that looks at the file `c` only through `json.load`, and ends with `bad` when that raises a ValueError; the
    configurations it may find satisfy `good`; its outcomes satisfy `Q`; it does not write `c`, and once it writes it
    reads no more. -/
def Strict {ρ : Type} (F : TextFormat α) (c : String) (good : Json α → Prop) (bad : ρ) (Q : ρ → Prop) : Prog ρ → Prop
  | .ret r => Q r
  | .read q k =>
    (q = c → (∀ t, jsonLoad F.float t = .error .valueError → k (some t) = .ret bad) ∧
      ∀ t t', jsonLoad F.float t = jsonLoad F.float t' → k (some t) = k (some t')) ∧
    ∀ t, (q = c → ∀ text data, t = some text → jsonLoad F.float text = .ok data → good data) → Strict F c good bad Q (k t)
  | .write q _ k => q ≠ c ∧ OnlyWrites c k

theorem Strict.andThen {σ τ : Type} {F : TextFormat α} {c : String} {good : Json α → Prop} {P : σ → Prop} {P' : τ → Prop}
    {p : Prog (Except Err σ)} {f : σ → Prog (Except Err τ)}
    (hp : Strict F c good (.error .valueError) (fun r => ∀ x, r = .ok x → P x) p) (hno' : ∀ R : String → Prop, (∀ q, R q) → OnlyReads R p)
    (hf : ∀ x, P x → Strict F c good (.error .valueError) (fun r => ∀ x, r = .ok x → P' x) (f x)) :
    Strict F c good (.error .valueError) (fun r => ∀ x, r = .ok x → P' x) (p.andThen f) := by
  have hno := hno' (fun _ => True) (fun _ => trivial)
  clear hno'
  unfold Prog.andThen
  induction p with
  | ret r =>
    cases r with
    | error e => intro x hx; cases hx
    | ok r => exact hf r (hp r rfl)
  | read q k ih =>
    refine ⟨fun hq => ⟨fun t ht => ?_, fun t t' ht => ?_⟩, fun t ht => ih t (hp.2 t ht) (hno.2 t)⟩
    · show (k (some t)).bind _ = _
      rw [(hp.1 hq).1 t ht]
      rfl
    · show (k (some t)).bind _ = (k (some t')).bind _
      rw [(hp.1 hq).2 t t' ht]
  | write q t k ih => exact hno.elim

theorem Strict.mono {ρ : Type} {F : TextFormat α} {c : String} {good : Json α → Prop} {bad : ρ} {Q Q' : ρ → Prop} {p : Prog ρ}
    (hp : Strict F c good bad Q p) (h : ∀ r, Q r → Q' r) : Strict F c good bad Q' p := by
  induction p with
  | ret r => exact h r hp
  | read q k ih => exact ⟨hp.1, fun t ht => ih t (hp.2 t ht)⟩
  | write q t k ih => exact hp

section
variable {F : TextFormat α} {jsonFile : String} {good : Json α → Prop}

theorem reader_strict {β : Type} (f : Json α → Except Err β) :
    Strict F (F.canon jsonFile) good (.error .valueError) (fun r => ∀ x, r = .ok x → ∃ data, good data ∧ f data = .ok x) (readerProg F jsonFile f) := by
  unfold readerProg
  refine ⟨fun _ => ⟨fun t ht => ?_, fun t t' ht => ?_⟩, fun t ht => ?_⟩
  · dsimp only
    rw [ht]
  · dsimp only
    rw [ht]
  · cases t with
    | none => intro x hx; cases hx
    | some text =>
      dsimp only
      cases hj : jsonLoad F.float text with
      | error e => intro x hx; cases hx
      | ok data => exact fun x hx => ⟨data, ht rfl text data rfl hj, hx⟩

theorem reader_strict' {β : Type} (f : Json α → Except Err β) :
    Strict F (F.canon jsonFile) good (.error .valueError) (fun r => ∀ x, r = .ok x → True) (readerProg F jsonFile f) :=
  (reader_strict f).mono fun _ _ _ _ => trivial

theorem reader_reads {β : Type} (f : Json α → Except Err β) (R : String → Prop) (h : ∀ q, R q) : OnlyReads R (readerProg F jsonFile f) :=
  reader_only F jsonFile (h _) f

theorem named_strict {β : Type} (names : List String) (name : Json α) (f : Json α → Except Err β) :
    Strict F (F.canon jsonFile) good (.error .valueError) (fun r => ∀ x, r = .ok x → True) (namedProg names name (readerProg F jsonFile f)) := by
  unfold namedProg
  split
  · exact reader_strict' f
  · exact fun _ _ => trivial

theorem ret_strict {β : Type} {c : String} {bad : Except Err β} (r : Except Err β) : Strict F c good bad (fun r => ∀ x, r = .ok x → True) (.ret r) :=
  fun _ _ => trivial

theorem fluxes_strict (ks : List FluxKind) :
    Strict F (F.canon jsonFile) good (.error .valueError) (fun r => ∀ x, r = .ok x → True) (fluxesProg F jsonFile ks) := by
  induction ks with
  | nil => exact ret_strict _
  | cons k ks ih =>
    exact (reader_strict' _).andThen (reader_reads _) fun f _ =>
      ih.andThen (fun R h => fluxes_only F jsonFile (h _) ks) fun fs _ => ret_strict _

theorem crust_strict (name : Json α) (hc : F.canon "resources/crust_temperature_profile.txt" ≠ F.canon jsonFile) :
    Strict F (F.canon jsonFile) good (.error .valueError) (fun r => ∀ x, r = .ok x → True) (crustProg F jsonFile name) := by
  unfold crustProg
  split
  · refine ⟨fun h => absurd h hc, fun t _ => ?_⟩
    dsimp only
    split
    · exact ret_strict _
    · split
      · exact ret_strict _
      · exact reader_strict' _
  · exact named_strict _ _ _

theorem factory_strict (hc : F.canon "resources/crust_temperature_profile.txt" ≠ F.canon jsonFile) :
    Strict F (F.canon jsonFile) good (.error .valueError) (fun r => ∀ x, r = .ok x → True) (factoryProg F jsonFile) := by
  have hn : ∀ {β : Type} (names : List String) (name : Json α) (f : Json α → Except Err β) (R : String → Prop), (∀ q, R q) →
      OnlyReads R (namedProg names name (readerProg F jsonFile f)) := fun names name f R h => named_only F jsonFile (h _) names name f
  unfold factoryProg
  refine (reader_strict' _).andThen (reader_reads _) fun n _ => ?_
  refine (named_strict _ _ _).andThen (hn _ _ _) fun cryst _ => ?_
  refine (reader_strict' _).andThen (reader_reads _) fun air _ => ?_
  refine (named_strict _ _ _).andThen (hn _ _ _) fun ves _ => ?_
  refine (named_strict _ _ _).andThen (hn _ _ _) fun melt _ => ?_
  refine (named_strict _ _ _).andThen (hn _ _ _) fun rel _ => ?_
  refine (named_strict _ _ _).andThen (hn _ _ _) fun bub _ => ?_
  refine (named_strict _ _ _).andThen (hn _ _ _) fun yld _ => ?_
  refine (reader_strict' _).andThen (reader_reads _) fun lava _ => ?_
  refine (named_strict _ _ _).andThen (hn _ _ _) fun cover _ => ?_
  refine (crust_strict _ hc).andThen (fun R h => crust_only F jsonFile (h _) (h _) _) fun crust _ => ?_
  refine (ret_strict _).andThen (fun R h => trivial) fun kinds _ => ?_
  exact (fluxes_strict _).andThen (fun R h => fluxes_only F jsonFile (h _) _) fun fluxes _ => ret_strict _

end

theorem prepare_strict (F : TextFormat α) (jsonFile folder : String) (good : Json α → Prop) (hgood : ∀ data, good data → ConfigApart F jsonFile folder data) :
    Strict F (F.canon jsonFile) good (.error .valueError)
      (fun r => ∀ pr, r = .ok pr → F.canon (resultFileName folder (pr.cfg.lavaName.show (textEnv F [])) (pr.cfg.rate.show (textEnv F []))) ≠ F.canon jsonFile)
      (prepareProg F jsonFile) := by
  unfold prepareProg
  refine (reader_strict _).andThen (reader_reads _) fun cfg hcfg => ?_
  obtain ⟨data, hg, hcfg⟩ := hcfg
  obtain ⟨hp, hr⟩ := hgood data hg
  have hcrust : F.canon "resources/crust_temperature_profile.txt" ≠ F.canon jsonFile := hp _ (Or.inr (Or.inr rfl))
  obtain ⟨h1, h2, h3⟩ : TopEntry data "effusion_rate_init" cfg.rate ∧ TopEntry data "lava_name" cfg.lavaName ∧ TopEntry data "slope_file" cfg.slopeFile := by
    unfold readRunConfig at hcfg
    simp only [bind_ok_iff, pure_ok_iff] at hcfg
    obtain ⟨rate, g1, lv, g2, sl, g3, sz, g4, x, g5, raw, g6, rfl⟩ := hcfg
    exact ⟨(get_ok_iff _ _ _).mp g1, (get_ok_iff _ _ _).mp (requireTop_get g2), (get_ok_iff _ _ _).mp (requireTop_get g3)⟩
  refine (reader_strict' _).andThen (reader_reads _) fun t0 _ => ?_
  refine Strict.andThen (P := fun _ => True) ?_ (fun R h => ?_) fun t _ => ?_
  · unfold slopeProg
    split
    · exact ret_strict _
    · rename_i p hpath
      refine ⟨fun h => absurd h (hp p ?_), fun t _ => ret_strict _⟩
      cases hs : cfg.slopeFile with
      | str s =>
        rw [hs] at hpath h3
        obtain rfl := Option.some.inj hpath
        exact Or.inl h3
      | null =>
        rw [hs] at hpath h3
        exact Or.inr (Or.inl ⟨h3, (Option.some.inj hpath).symm⟩)
      | _ => rw [hs] at hpath; cases hpath
  · unfold slopeProg
    split
    · trivial
    · exact ⟨h _, fun t => trivial⟩
  refine (factory_strict hcrust).andThen (fun R h => factory_only F jsonFile (h _) (h _)) fun models _ => ?_
  refine (reader_strict' _).andThen (reader_reads _) fun x _ => ?_
  refine (reader_strict' _).andThen (reader_reads _) fun y _ => ?_
  refine (ret_strict _).andThen (fun R h => trivial) fun st _ => ?_
  intro pr hpr
  obtain rfl := Except.ok.inj hpr
  exact hr _ _ h1 h2

theorem save_onlyWrites {ρ : Type} {c : String} (flush : List Char → List Nat) (p : String) (hp : p ≠ c) (t : List Char) (k : Prog ρ) (hk : OnlyWrites c k) :
    ∃ k', Prog.save flush p t k = .write p [] k' ∧ OnlyWrites c k' := by
  refine ⟨_, rfl, ?_⟩
  generalize flush t = ns
  induction ns with
  | nil => exact ⟨hp, hk⟩
  | cons n ns ih => exact ⟨hp, ih⟩

theorem OnlyWrites.bind {ρ σ : Type} {c : String} {p : Prog ρ} {f : ρ → Prog σ} (hp : OnlyWrites c p) (hf : ∀ r, OnlyWrites c (f r)) : OnlyWrites c (p.bind f) := by
  induction p with
  | ret r => exact hf r
  | read q k ih => exact hp.elim
  | write q t k ih => exact ⟨hp.1, ih hp.2⟩

/-- The whole run. -/
theorem run_strict (M : Machine α) (jsonFile folder : String) (good : Json α → Prop) (hgood : ∀ data, good data → ConfigApart M.F jsonFile folder data) :
    Strict M.F (M.F.canon jsonFile) good (some (.error .valueError)) (fun _ => True) (Job.prog M (.run jsonFile folder)) := by
  show Strict _ _ _ _ _ ((runProg M.grid M.fuel M.F M.flush jsonFile folder).bind _)
  unfold runProg
  have hp := prepare_strict M.F jsonFile folder good hgood
  have hno : OnlyReads (fun _ => True) (prepareProg M.F jsonFile) := by
    unfold prepareProg
    refine (reader_only _ _ trivial _).andThen fun cfg => ?_
    refine (reader_only _ _ trivial _).andThen fun t0 => ?_
    refine OnlyReads.andThen ?_ fun t => ?_
    · unfold slopeProg
      split
      · trivial
      · exact ⟨trivial, fun t => trivial⟩
    refine (factory_only _ _ trivial trivial).andThen fun models => ?_
    refine (reader_only _ _ trivial _).andThen fun x => ?_
    refine (reader_only _ _ trivial _).andThen fun y => ?_
    exact OnlyReads.andThen trivial fun st => trivial
  generalize prepareProg M.F jsonFile = p at hp hno
  induction p with
  | ret r =>
    cases r with
    | error e => trivial
    | ok pr =>
      show Strict _ _ _ _ _ ((finishProg M.grid M.fuel M.F M.flush folder pr).bind _)
      have hne := hp pr rfl
      unfold finishProg
      split
      · trivial
      · trivial
      · split
        · trivial
        · trivial
        · rename_i t _
          obtain ⟨k', e, hk'⟩ := save_onlyWrites (c := M.F.canon jsonFile) M.flush _ hne (stored M.F.windows (t.text M.F.str))
            (.ret (some (.ok ())) : Prog (Option (Except Err Unit))) trivial
          rw [e]
          exact ⟨hne, hk'.bind fun r => trivial⟩
  | read q k ih =>
    refine ⟨fun hq => ⟨fun t ht => ?_, fun t t' ht => ?_⟩, fun t ht => ih t (hp.2 t ht) (hno.2 t)⟩
    · show ((k (some t)).bind _).bind _ = _
      rw [(hp.1 hq).1 t ht]
      rfl
    · show ((k (some t)).bind _).bind _ = ((k (some t')).bind _).bind _
      rw [(hp.1 hq).2 t t' ht]
  | write q t k ih => exact hno.elim

end PyFlowGo
