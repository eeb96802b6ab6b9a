import Verif.Proofs.Interleave
import Verif.Props.Schedules
/-
  C108: what can go wrong when two sweeps use the same working copy, or a configuration is changed while a run reads it.
-/
set_option linter.unusedSectionVars false
namespace PyFlowGo
open Spec
variable {α : Type} [Add α] [Sub α] [Mul α] [Neg α] [OfScientific α] [PyNum α]

theorem single_rate (r : Int) : sweepRates r r 1 = .ok [r] := by
  unfold sweepRates pyRange
  rw [if_neg (by decide), if_pos (by decide)]
  have : (r + 1 - r + 1 - 1) / 1 = 1 := by omega
  rw [this]
  simp

/-- What follows the run of the only rate. -/
def afterRun (F : TextFormat α) (folder : String) (data : Json α) (r : Int) : Option (Except Err Unit) → Prog (Option (Except Err (List String)))
  | none => .ret none
  | some (.error e) => .ret (some (.error e))
  | some (.ok _) =>
    match data.get "lava_name" with
    | .error e => .ret (some (.error e))
    | .ok nm => .ret (some (.ok [resultFileName folder (nm.show (textEnv F [])) (toString r)]))

/-- A sweep over one rate gets to its run. -/
theorem single_reaches (M : Machine α) (jsonFile folder : String) (r : Int) (d : Files) {text : List Char} {template data : Json α}
    (hl : lookup d (M.F.canon jsonFile) = some text) (hj : jsonLoad M.F.float text = .ok template)
    (hset : template.set "effusion_rate_init" (.int r) = .ok data) :
    ∃ e, SameDisk e (writeFile d (M.F.canon (workingFile jsonFile folder)) (stored M.F.windows (jsonDump M.numText data))) ∧
      Reaches (Job.prog M (.sweep jsonFile folder r r 1)) d
        ((runProg M.grid M.fuel M.F M.flush (workingFile jsonFile folder) folder).bind (afterRun M.F folder data r)) e := by
  have hloop : sweepLoopProg M.grid M.fuel M.F M.numText M.flush template (workingFile jsonFile folder) folder [r] [] =
      Prog.save M.flush (M.F.canon (workingFile jsonFile folder)) (stored M.F.windows (jsonDump M.numText data))
        ((runProg M.grid M.fuel M.F M.flush (workingFile jsonFile folder) folder).bind (afterRun M.F folder data r)) := by
    unfold sweepLoopProg
    rw [hset]
    dsimp only
    congr 2
  obtain ⟨e, he, hr⟩ := save_reaches M.flush (M.F.canon (workingFile jsonFile folder)) (stored M.F.windows (jsonDump M.numText data))
    ((runProg M.grid M.fuel M.F M.flush (workingFile jsonFile folder) folder).bind (afterRun M.F folder data r)) d
  refine ⟨e, he, ?_⟩
  have h1 := Reaches.step (Job.prog M (.sweep jsonFile folder r r 1)) d
  have h2 : ((Job.prog M (.sweep jsonFile folder r r 1)).step d) =
      (sweepLoopProg M.grid M.fuel M.F M.numText M.flush template (workingFile jsonFile folder) folder [r] [], d) := by
    simp only [Job.prog, sweepProg, Prog.step]
    rw [hl]
    dsimp only
    rw [hj]
    dsimp only
    rw [single_rate]
  rw [h2, hloop] at h1
  exact h1.trans hr

/-- **C108**. Two sweeps of one template into one folder, one for the rate `r1` and one for `r2`, in processes of their own (the working
    copy is not the template, and no file the runs read is a result file). Suppose the run for `r2` on its own writes the table `out`.
    There is a schedule under which both sweeps end normally and report their own result file, but the one for `r1` is not written:
    all that is new on the disk is what the sweep for `r2` leaves. And there is a schedule under which both end normally and the
    result file for `r1` holds the table computed for `r2`. -/
theorem C108_two_sweeps_one_folder (M : Machine α) (jsonFile folder : String) (d : Files) (text : List Char) (template data1 data2 lava : Json α)
    (r1 r2 : Int) (hl : lookup d (M.F.canon jsonFile) = some text) (ht : JsonText M.F.float (universal text) template)
    (hnums : NumsAll (Readable M.F.float M.numText) template) (hlava : TopEntry template "lava_name" lava)
    (h1 : template.set "effusion_rate_init" (.int r1) = .ok data1) (h2 : template.set "effusion_rate_init" (.int r2) = .ok data2)
    (hother : M.F.canon jsonFile ≠ M.F.canon (workingFile jsonFile folder)) (name : Int → String)
    (hname : ∀ r, name r = resultFileName folder (lava.show (textEnv M.F [])) (toString r))
    (hsafe : ∀ r path, MayRead template path → M.F.canon (name r) ≠ M.F.canon path)
    (hwork : ∀ r, M.F.canon (name r) ≠ M.F.canon (workingFile jsonFile folder)) (out : List Char)
    (hrun : let left := (M.F.canon (workingFile jsonFile folder), stored M.F.windows (jsonDump M.numText data2)) :: d
      runTextOn M.grid M.fuel M.F (workingFile jsonFile folder) folder left = some (.ok (), (M.F.canon (name r2), out) :: left)) :
    let sys : Sys (Option (Except Err (List String))) := ⟨[Job.prog M (.sweep jsonFile folder r1 r1 1), Job.prog M (.sweep jsonFile folder r2 r2 1)], d⟩
    let left := (M.F.canon (workingFile jsonFile folder), stored M.F.windows (jsonDump M.numText data2)) :: d
    (∃ σ, (sys.exec σ).procs = [.ret (some (.ok [name r1])), .ret (some (.ok [name r2]))] ∧
      SameFiles (sys.exec σ).disk ((M.F.canon (name r2), out) :: left)) ∧
    ∃ σ, (sys.exec σ).procs = [.ret (some (.ok [name r1])), .ret (some (.ok [name r2]))] ∧
      SameFiles (sys.exec σ).disk ((M.F.canon (name r2), out) :: (M.F.canon (name r1), out) :: left) := by
  intro sys left
  have hrun : runTextOn M.grid M.fuel M.F (workingFile jsonFile folder) folder left = some (.ok (), (M.F.canon (name r2), out) :: left) := hrun
  have hj : jsonLoad M.F.float text = .ok template := (jsonLoads_iff M.F.float _ template).mpr ht
  have hdist := C79_loaded_keys_distinct M.F.float text template hj
  have hload : ∀ {r : Int} {data : Json α}, template.set "effusion_rate_init" (.int r) = .ok data →
      jsonLoad M.F.float (stored M.F.windows (jsonDump M.numText data)) = .ok data := fun {r data} hset =>
    C79_round_trip M.F.float M.numText data (set_distinct hset hdist (by simp [DistinctKeys])) (set_nums hset hnums (by simp [NumsAll])) M.F.windows
  have hget : ∀ {r : Int} {data : Json α}, template.set "effusion_rate_init" (.int r) = .ok data → data.get "lava_name" = .ok lava := by
    intro r data hset
    exact (get_ok_iff _ _ _).mpr (((set_spec _ _ _ _ hset).2 _ (by decide) _).mpr hlava)
  have hmay : ∀ path, MayRead data2 path ↔ MayRead template path :=
    fun path => mayRead_withRate (r := r2) ⟨(set_spec _ _ _ _ h2).1, fun k hk x => (set_spec _ _ _ _ h2).2 k hk x⟩ path
  -- up to the runs
  obtain ⟨eA, sA, reachA⟩ := single_reaches M jsonFile folder r1 d hl hj h1
  have hlA : lookup eA (M.F.canon jsonFile) = some text := by
    rw [sA, lookup_writeFile, if_neg (fun h => hother h.symm), hl]
  obtain ⟨eB, sB, reachB⟩ := single_reaches M jsonFile folder r2 eA hlA hj h2
  have sB' : SameDisk eB left := (sB.trans (sA.write _ _)).trans (SameDisk.overwrite _ _ _ _)
  have hlw : ∀ e, SameDisk e left → lookup e (M.F.canon (workingFile jsonFile folder)) = some (stored M.F.windows (jsonDump M.numText data2)) := by
    intro e he
    rw [he, lookup_cons_eq, if_pos rfl]
  -- a run on any disk that looks like this
  have hgood : ∀ e, SameDisk e left → ((runProg M.grid M.fuel M.F M.flush (workingFile jsonFile folder) folder).run e).1 = some (.ok ()) ∧
      SameDisk ((runProg M.grid M.fuel M.F M.flush (workingFile jsonFile folder) folder).run e).2 ((M.F.canon (name r2), out) :: left) := by
    intro e he
    obtain ⟨a, b⟩ := (runProg M.grid M.fuel M.F M.flush (workingFile jsonFile folder) folder).run_same he
    obtain ⟨d', c1, c2⟩ := run_solo M.grid M.fuel M.F M.flush (workingFile jsonFile folder) folder left
    rw [hrun] at c2
    rw [a]
    cases ho : ((runProg M.grid M.fuel M.F M.flush (workingFile jsonFile folder) folder).run left).1 with
    | none => rw [ho] at c2; cases c2
    | some o =>
      rw [ho] at c2
      obtain ⟨k1, k2⟩ := Prod.mk.inj (Option.some.inj c2)
      subst k1
      rw [← k2] at c1
      exact ⟨rfl, b.trans c1⟩
  have hReads : ∀ e, SameDisk e left → ∀ r, ¬ RunReads M.F e (workingFile jsonFile folder) (M.F.canon (name r)) := by
    rintro e he r (h | ⟨data', path, ⟨text', g1, g2⟩, g3, g4⟩)
    · exact hwork r h
    · rw [hlw e he] at g1
      obtain rfl := Option.some.inj g1
      have a := (jsonLoads_iff M.F.float _ _).mpr g2
      have a' : jsonLoad M.F.float (stored M.F.windows (jsonDump M.numText data2)) = .ok data' := a
      rw [hload h2] at a'
      obtain rfl := Except.ok.inj a'
      exact hsafe r path ((hmay path).mp g3) g4
  have hfin : ∀ (r : Int) (data : Json α), template.set "effusion_rate_init" (.int r) = .ok data →
      afterRun M.F folder data r (some (.ok ())) = .ret (some (.ok [name r])) := by
    intro r data hset
    unfold afterRun
    dsimp only
    rw [hget hset]
    dsimp only
    rw [hname]
  -- the second process on a disk with further result files
  have hB : ∀ e (r : Int), SameDisk e ((M.F.canon (name r), out) :: left) → ∃ e', SameDisk e' ((M.F.canon (name r2), out) :: (M.F.canon (name r), out) :: left) ∧
      Reaches ((runProg M.grid M.fuel M.F M.flush (workingFile jsonFile folder) folder).bind (afterRun M.F folder data2 r2)) e
        (.ret (some (.ok [name r2]))) e' := by
    intro e r he
    have hf : Fresh (fun q => q = M.F.canon (name r)) (runProg M.grid M.fuel M.F M.flush (workingFile jsonFile folder) folder) left :=
      run_fresh M _ _ left (fun q hq => by subst hq; exact hReads left (SameDisk.refl _) r)
    obtain ⟨f1, f2⟩ := hf.run (e := e) (fun q => by
      rw [he, lookup_cons_eq]
      split
      · rename_i h; exact Or.inr h.symm
      · exact Or.inl rfl)
    obtain ⟨g1, g2⟩ := hgood left (SameDisk.refl _)
    refine ⟨((runProg M.grid M.fuel M.F M.flush (workingFile jsonFile folder) folder).run e).2, fun q => ?_, ?_⟩
    · rw [lookup_cons_eq, lookup_cons_eq]
      have hkeep : lookup ((runProg M.grid M.fuel M.F M.flush (workingFile jsonFile folder) folder).run e).2 q = lookup e q ∨
          WritesAlone (runProg M.grid M.fuel M.F M.flush (workingFile jsonFile folder) folder) left q := by
        obtain ⟨N, hN⟩ := alone_ends (runProg M.grid M.fuel M.F M.flush (workingFile jsonFile folder) folder) e
        have := alone_keeps (runProg M.grid M.fuel M.F M.flush (workingFile jsonFile folder) folder) e N q
        rw [hN N le_rfl] at this
        refine this.imp id ?_
        rintro ⟨m, hm⟩
        refine ⟨m, ?_⟩
        rw [← hf.steps (e := e) (fun q => by
          rw [he, lookup_cons_eq]
          split
          · rename_i h; exact Or.inr h.symm
          · exact Or.inl rfl) m]
        exact hm
      rcases f2 q with h | ⟨h, hnw⟩
      · rw [h, g2, lookup_cons_eq]
        split
        · rfl
        · rename_i hne
          split
          · rename_i hq
            -- the file of the other rate: not written by this run
            rcases hkeep with hk | hk
            · have hg := g2 q
              rw [lookup_cons_eq, if_neg hne] at hg
              rw [← hg, ← h, hk, he, lookup_cons_eq, if_pos hq]
            · exfalso
              obtain ⟨m, hm⟩ := hk
              obtain ⟨data', rate, lv, ⟨text', u1, u2⟩, u3, u4, u5⟩ :=
                ((run_along M.grid M.fuel M.F M.flush (workingFile jsonFile folder) folder left).at m).writes q hm
              rw [hlw left (SameDisk.refl _)] at u1
              obtain rfl := Option.some.inj u1
              have a := (jsonLoads_iff M.F.float _ _).mpr u2
              have a' : jsonLoad M.F.float (stored M.F.windows (jsonDump M.numText data2)) = .ok data' := a
              rw [hload h2] at a'
              obtain rfl := Except.ok.inj a'
              obtain rfl := topEntry_unique u3 (set_spec _ _ _ _ h2).1
              obtain rfl := topEntry_unique u4 (((set_spec _ _ _ _ h2).2 _ (by decide) _).mpr hlava)
              apply hne
              rw [u5, hname]
              rfl
          · rfl
      · subst h
        rcases hkeep with hk | hk
        · rw [hk, he, lookup_cons_eq, if_pos rfl]
          split
          · rfl
          · rfl
        · exact absurd hk hnw
    · have hr := Reaches.ends ((runProg M.grid M.fuel M.F M.flush (workingFile jsonFile folder) folder).bind (afterRun M.F folder data2 r2)) e
      rw [Prog.run_bind, f1, g1, hfin r2 data2 h2] at hr
      exact hr
  constructor
  · -- the working copy is replaced before the run of the first sweep opens it
    obtain ⟨a1, a2⟩ := hgood eB sB'
    have hA := Reaches.ends ((runProg M.grid M.fuel M.F M.flush (workingFile jsonFile folder) folder).bind (afterRun M.F folder data1 r1)) eB
    rw [Prog.run_bind, a1, hfin r1 data1 h1] at hA
    obtain ⟨e', s', hB'⟩ := hB _ r2 a2
    obtain ⟨σ, hσ⟩ := four_turns reachA reachB hA hB'
    refine ⟨σ, congrArg Sys.procs hσ, ?_⟩
    intro q
    have hd : (sys.exec σ).disk = e' := congrArg Sys.disk hσ
    rw [hd, s' q, lookup_cons_eq, lookup_cons_eq]
    split
    · rfl
    · rfl
  · -- the working copy is replaced after the run of the first sweep has opened it for the first time
    obtain ⟨pr, w, t, p1, p2, p3, p4, p5⟩ := run_wrote_inv M.grid M.fuel M.F (workingFile jsonFile folder) folder left (M.F.canon (name r2)) out
      (hlw left (SameDisk.refl _)) (hload h2) hrun
    obtain ⟨cfg, hcfg, hpr⟩ : ∃ cfg, readRunConfig (textEnv M.F []) data2 = .ok cfg ∧ pr.cfg = cfg := by
      unfold prepare at p1
      obtain ⟨cfg, hcfg, hp⟩ := bind_ok_iff.mp p1
      simp only [bind_ok_iff, pure_ok_iff] at hp
      obtain ⟨_, _, _, _, _, _, _, _, _, _, _, _, rfl⟩ := hp
      refine ⟨cfg, ?_, rfl⟩
      exact hcfg
    obtain ⟨hr2, hcfg1⟩ := readRunConfig_rates (F := M.F) h1 h2 hcfg
    have hlwA : lookup eA (M.F.canon (workingFile jsonFile folder)) = some (stored M.F.windows (jsonDump M.numText data1)) := by
      rw [sA, lookup_writeFile, if_pos rfl]
    -- the first look at the configuration
    have hstep : ((runProg M.grid M.fuel M.F M.flush (workingFile jsonFile folder) folder).bind (afterRun M.F folder data1 r1)).step eA =
        (((tailProg M.F (workingFile jsonFile folder) { cfg with rate := .int r1 }).bind fun
          | .error e => .ret (some (.error e))
          | .ok pr => finishProg M.grid M.fuel M.F M.flush folder pr).bind (afterRun M.F folder data1 r1), eA) := by
      unfold runProg
      rw [prepare_tail]
      unfold Prog.andThen readerProg
      simp only [Prog.bind, Prog.step]
      rw [hlwA]
      dsimp only
      rw [hload h1]
      simp only [Prog.bind]
      rw [hcfg1]
      rfl
    have reachA' := Reaches.step ((runProg M.grid M.fuel M.F M.flush (workingFile jsonFile folder) folder).bind (afterRun M.F folder data1 r1)) eA
    rw [hstep] at reachA'
    -- the rest of the first run, on the second configuration
    have htail : ((tailProg M.F (workingFile jsonFile folder) { cfg with rate := .int r1 }).run eB) = (.ok { pr with cfg := { cfg with rate := .int r1 } }, eB) := by
      have hp := prepare_run M.F (workingFile jsonFile folder) eB _ data2 (hlw eB sB') (hload h2)
      rw [prepare_tail] at hp
      unfold Prog.andThen at hp
      rw [Prog.run_bind] at hp
      have hread : (readerProg M.F (workingFile jsonFile folder) (readRunConfig (textEnv M.F []))).run eB = (.ok cfg, eB) := by
        unfold readerProg Prog.run
        rw [hlw eB sB']
        dsimp only
        rw [hload h2]
        dsimp only
        rw [hcfg]
        rfl
      rw [hread] at hp
      dsimp only at hp
      rw [tail_rate, Prog.run_bind, hp, textEnv_same M.F sB', p1]
      rfl
    obtain ⟨q1, q2⟩ := save_run M.flush (M.F.canon (name r1)) out (.ret ((some (Except.ok ()) : Option (Except Err Unit)))) eB
    have hfinish : finishProg M.grid M.fuel M.F M.flush folder { pr with cfg := { cfg with rate := .int r1 } } =
        Prog.save M.flush (M.F.canon (name r1)) out (.ret (some (.ok ()))) := by
      unfold finishProg
      dsimp only
      rw [p2]
      dsimp only
      rw [p3]
      dsimp only
      have : cfg.lavaName = lava := by
        unfold readRunConfig at hcfg
        simp only [bind_ok_iff, pure_ok_iff] at hcfg
        obtain ⟨_, _, lv, hlv, _, _, _, _, _, _, _, _, rfl⟩ := hcfg
        dsimp only
        unfold requireTop at hlv
        obtain ⟨b, _, hlv⟩ := bind_ok_iff.mp hlv
        split at hlv
        · rw [hget h2] at hlv
          exact (Except.ok.inj hlv).symm
        · cases hlv
      rw [this, hname, p5]
      rfl
    have hA := Reaches.ends (((tailProg M.F (workingFile jsonFile folder) { cfg with rate := .int r1 }).bind fun
          | .error e => .ret (some (.error e))
          | .ok pr => finishProg M.grid M.fuel M.F M.flush folder pr).bind (afterRun M.F folder data1 r1)) eB
    rw [Prog.run_bind, Prog.run_bind, htail] at hA
    dsimp only at hA
    rw [hfinish, q1] at hA
    rw [show ∀ e : Files, (Prog.ret ((some (Except.ok ()) : Option (Except Err Unit)))).run e = (some (Except.ok ()), e) from fun _ => rfl] at hA
    dsimp only at hA
    rw [hfin r1 data1 h1] at hA
    obtain ⟨e', s', hB'⟩ := hB _ r1 (q2.trans (sB'.write _ _))
    obtain ⟨σ, hσ⟩ := four_turns (reachA.trans reachA') reachB hA hB'
    have hd : (sys.exec σ).disk = e' := congrArg Sys.disk hσ
    exact ⟨σ, congrArg Sys.procs hσ, by rw [hd]; exact s'⟩

end PyFlowGo
