import Verif.Proofs.SweepFootprint
/-
  A process that is stopped and started again.
-/
set_option linter.unusedSectionVars false
namespace PyFlowGo
open Spec
variable {ρ : Type}

theorem alone_succ (p : Prog ρ) (d : Files) (n : Nat) : alone p d (n + 1) = alone (p.step d).1 (p.step d).2 n := by
  induction n with
  | zero => rfl
  | succ n ih =>
    show (alone p d (n + 1)).1.step (alone p d (n + 1)).2 = _
    rw [ih]
    rfl

/-- Of the files in `W` the process reads none before it has written it. -/
def Fresh (W : String → Prop) : Prog ρ → Files → Prop
  | .ret _, _ => True
  | .read q k, d => ¬ W q ∧ Fresh W (k (lookup d q)) d
  | .write q t k, d => Fresh (fun q' => W q' ∧ q' ≠ q) k (writeFile d q t)

theorem Fresh.mono {W W' : String → Prop} {p : Prog ρ} {d : Files} (h : Fresh W p d) (hW : ∀ q, W' q → W q) : Fresh W' p d := by
  induction p generalizing W W' d with
  | ret r => trivial
  | read q k ih => exact ⟨fun hq => h.1 (hW q hq), ih _ h.2 hW⟩
  | write q t k ih => exact ih h fun q' hq' => ⟨hW q' hq'.1, hq'.2⟩

theorem Fresh.bind {σ : Type} {W : String → Prop} {p : Prog ρ} {f : ρ → Prog σ} {d : Files} (hp : Fresh W p d)
    (hf : Fresh W (f (p.run d).1) (p.run d).2) : Fresh W (p.bind f) d := by
  induction p generalizing W d with
  | ret r => exact hf
  | read q k ih => exact ⟨hp.1, ih _ hp.2 hf⟩
  | write q t k ih => exact ih hp (hf.mono fun q' h => h.1)

theorem Fresh.of_along {W : String → Prop} {p : Prog ρ} {d : Files} (h : Along (fun a _ => ∀ q, a = .reads q → ¬ W q) p d) : Fresh W p d := by
  induction p generalizing W d with
  | ret r => trivial
  | read q k ih => exact ⟨h.1 q rfl, ih _ h.2⟩
  | write q t k ih => exact ih (h.2.mono fun a e h q' hq' hw => h q' hq' hw.1)

theorem writes_ret (r : ρ) (d : Files) (q : String) : ¬ WritesAlone (.ret r) d q := by
  rintro ⟨n, hn⟩
  have : ∀ n, alone (.ret r) d n = (.ret r, d) := by
    intro n
    induction n with
    | zero => rfl
    | succ n ih => rw [alone_succ]; exact ih
  rw [this] at hn
  cases hn

theorem writes_read (q' : String) (k : Option (List Char) → Prog ρ) (d : Files) (q : String) :
    WritesAlone (.read q' k) d q ↔ WritesAlone (k (lookup d q')) d q := by
  constructor
  · rintro ⟨n, hn⟩
    cases n with
    | zero => cases hn
    | succ n => exact ⟨n, by rw [alone_succ] at hn; exact hn⟩
  · rintro ⟨n, hn⟩
    exact ⟨n + 1, by rw [alone_succ]; exact hn⟩

theorem writes_write (q' : String) (t : List Char) (k : Prog ρ) (d : Files) (q : String) :
    WritesAlone (.write q' t k) d q ↔ q' = q ∨ WritesAlone k (writeFile d q' t) q := by
  constructor
  · rintro ⟨n, hn⟩
    cases n with
    | zero =>
      left
      have hn : Action.writes q' = .writes q := hn
      cases hn
      rfl
    | succ n => exact Or.inr ⟨n, by rw [alone_succ] at hn; exact hn⟩
  · rintro (rfl | ⟨n, hn⟩)
    · exact ⟨0, rfl⟩
    · exact ⟨n + 1, by rw [alone_succ]; exact hn⟩

/-- Two disks that differ only in such files: the same outcome, and at the end they differ only in files not written. -/
theorem Fresh.run {W : String → Prop} {p : Prog ρ} {d e : Files} (h : Fresh W p d) (he : ∀ q, lookup e q = lookup d q ∨ W q) :
    (p.run e).1 = (p.run d).1 ∧ ∀ q, lookup (p.run e).2 q = lookup (p.run d).2 q ∨ W q ∧ ¬ WritesAlone p d q := by
  induction p generalizing W d e with
  | ret r => exact ⟨rfl, fun q => (he q).imp id fun h => ⟨h, writes_ret r d q⟩⟩
  | read q k ih =>
    have hq : lookup e q = lookup d q := (he q).resolve_right h.1
    unfold Prog.run
    rw [hq]
    obtain ⟨a, b⟩ := ih _ h.2 he
    exact ⟨a, fun q' => (b q').imp id fun ⟨x, y⟩ => ⟨x, fun hw => y ((writes_read _ _ _ _).mp hw)⟩⟩
  | write q t k ih =>
    have he' : ∀ q', lookup (writeFile e q t) q' = lookup (writeFile d q t) q' ∨ (W q' ∧ q' ≠ q) := by
      intro q'
      rw [lookup_writeFile, lookup_writeFile]
      split
      · exact Or.inl rfl
      · rename_i hne
        exact (he q').imp id fun h => ⟨h, fun e => hne e.symm⟩
    obtain ⟨a, b⟩ := ih h he'
    refine ⟨a, fun q' => (b q').imp id fun ⟨x, y⟩ => ⟨x.1, fun hw => ?_⟩⟩
    rcases (writes_write _ _ _ _ _).mp hw with rfl | hw
    · exact x.2 rfl
    · exact y hw

/-- And on the way: the same steps. -/
theorem Fresh.steps {W : String → Prop} {p : Prog ρ} {d e : Files} (h : Fresh W p d) (he : ∀ q, lookup e q = lookup d q ∨ W q) (n : Nat) :
    (alone p e n).1 = (alone p d n).1 := by
  induction p generalizing W d e n with
  | ret r =>
    have : ∀ (d : Files) n, (alone (.ret r : Prog ρ) d n).1 = .ret r := by
      intro d n
      induction n with
      | zero => rfl
      | succ n ih => rw [alone_succ]; exact ih
    rw [this, this]
  | read q k ih =>
    cases n with
    | zero => rfl
    | succ n =>
      rw [alone_succ, alone_succ]
      have hq : lookup e q = lookup d q := (he q).resolve_right h.1
      show (alone (k (lookup e q)) e n).1 = _
      rw [hq]
      exact ih _ h.2 he n
  | write q t k ih =>
    cases n with
    | zero => rfl
    | succ n =>
      rw [alone_succ, alone_succ]
      refine ih h (fun q' => ?_) n
      show lookup (writeFile e q t) q' = _ ∨ _
      rw [lookup_writeFile, lookup_writeFile]
      split
      · exact Or.inl rfl
      · rename_i hne
        exact (he q').imp id fun h => ⟨h, fun e => hne e.symm⟩

/-- What a process has not written is as before. -/
theorem alone_keeps (p : Prog ρ) (d : Files) (n : Nat) (q : String) :
    lookup (alone p d n).2 q = lookup d q ∨ ∃ m, nextAction (alone p d m).1 = .writes q := by
  induction n with
  | zero => exact Or.inl rfl
  | succ n ih =>
    rcases ih with ih | ih
    · show lookup ((alone p d n).1.step (alone p d n).2).2 q = _ ∨ _
      cases hc : (alone p d n).1 with
      | ret r => exact Or.inl ih
      | read q' k => exact Or.inl ih
      | write q' t k =>
        by_cases hq : q' = q
        · subst hq
          exact Or.inr ⟨n, by rw [hc]; rfl⟩
        · left
          show lookup (writeFile _ q' t) q = _
          rw [lookup_writeFile, if_neg hq, ih]
    · exact Or.inr ih

theorem attempts_differ {p : Prog ρ} {d : Files} (h : Fresh (WritesAlone p d) p d) {e : Files} (ha : Attempts p d e) (q : String) :
    lookup e q = lookup d q ∨ WritesAlone p d q := by
  induction ha generalizing q with
  | none => exact Or.inl rfl
  | again n _ ih =>
    rename_i e _
    rcases alone_keeps p e n q with hk | ⟨m, hm⟩
    · rw [hk]; exact ih q
    · right
      refine ⟨m, ?_⟩
      rw [← h.steps ih m]
      exact hm

/-- After any attempts the process does what it would have done in the first place. -/
theorem restart {p : Prog ρ} {d : Files} (h : Fresh (WritesAlone p d) p d) {e : Files} (ha : Attempts p d e) :
    (p.run e).1 = (p.run d).1 ∧ SameDisk (p.run e).2 (p.run d).2 := by
  obtain ⟨a, b⟩ := h.run (attempts_differ h ha)
  exact ⟨a, fun q => (b q).resolve_right fun ⟨x, y⟩ => y x⟩

variable {α : Type} [Add α] [Sub α] [Mul α] [Neg α] [OfScientific α] [PyNum α]

theorem save_fresh {ρ : Type} {W : String → Prop} (flush : List Char → List Nat) (p : String) (text : List Char) (k : Prog ρ) (d : Files)
    (hk : ∀ e, SameDisk e (writeFile d p text) → Fresh (fun q => W q ∧ q ≠ p) k e) : Fresh W (Prog.save flush p text k) d := by
  unfold Prog.save
  have key : ∀ (ns : List Nat) (e : Files), SameDisk (writeFile e p text) (writeFile d p text) →
      Fresh (fun q => W q ∧ q ≠ p) (ns.foldr (fun n k => Prog.write p (text.take n) k) (.write p text k)) e := by
    intro ns
    induction ns with
    | nil => intro e he; exact (hk _ he).mono fun q h => h.1
    | cons n ns ih =>
      intro e he
      exact (ih (writeFile e p (text.take n)) ((SameDisk.overwrite _ _ _ _).trans he)).mono fun q h => h.1
  exact key _ _ (SameDisk.overwrite _ _ _ _)

theorem run_fresh (M : Machine α) (jsonFile folder : String) (d : Files) {W : String → Prop} (hW : ∀ q, W q → ¬ RunReads M.F d jsonFile q) :
    Fresh W (runProg M.grid M.fuel M.F M.flush jsonFile folder) d :=
  Fresh.of_along ((run_along M.grid M.fuel M.F M.flush jsonFile folder d).mono fun a e h q hq hw => hW q hw (h.reads q hq))

theorem sweepLoop_fresh (M : Machine α) (template : Json α) (working folder : String) (hdist : DistinctKeys template)
    (hnums : NumsAll (Readable M.F.float M.numText) template) {W : String → Prop} (hW : ∀ q, W q → ∀ path, MayRead template path → q ≠ M.F.canon path) :
    ∀ (rates : List Int) (names : List String) (d : Files),
      Fresh W (sweepLoopProg M.grid M.fuel M.F M.numText M.flush template working folder rates names) d := by
  intro rates
  induction rates with
  | nil => intro names d; trivial
  | cons r rest ih =>
    intro names d
    unfold sweepLoopProg
    cases hset : template.set "effusion_rate_init" (.int r) with
    | error x => trivial
    | ok data =>
      dsimp only
      obtain ⟨t1, t2⟩ := set_spec _ _ _ _ hset
      have hwith : WithRate template data r := ⟨t1, fun k hk x => t2 k hk x⟩
      have hload : jsonLoad M.F.float (stored M.F.windows (jsonDump M.numText data)) = .ok data :=
        C79_round_trip M.F.float M.numText data (set_distinct hset hdist (by simp [DistinctKeys]))
          (set_nums hset hnums (by simp [NumsAll])) M.F.windows
      refine save_fresh M.flush _ _ _ d fun e he => ?_
      have hlk : lookup e (M.F.canon working) = some (stored M.F.windows (jsonDump M.numText data)) := by rw [he, lookup_writeFile, if_pos rfl]
      refine Fresh.bind (run_fresh M working folder e fun q hq hr => ?_) ?_
      · rcases hr with h | ⟨data', path, ⟨text', h1, h2⟩, h3, h4⟩
        · exact hq.2 h
        · rw [hlk] at h1
          obtain rfl := Option.some.inj h1
          have a := (jsonLoads_iff M.F.float _ _).mpr h2
          have a' : jsonLoad M.F.float (stored M.F.windows (jsonDump M.numText data)) = .ok data' := a
          rw [hload] at a'
          obtain rfl := Except.ok.inj a'
          exact hW q hq.1 path ((mayRead_withRate hwith path).mp h3) h4
      · cases ((runProg M.grid M.fuel M.F M.flush working folder).run e).1 with
        | none => trivial
        | some o =>
          cases o with
          | error x => trivial
          | ok u =>
            dsimp only
            cases data.get "lava_name" with
            | error x => trivial
            | ok nm => exact (ih _ _).mono fun q h => h.1

end PyFlowGo
