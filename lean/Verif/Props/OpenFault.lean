import Verif.Proofs.OpenFault
import Verif.Spec.OpenFault
import Verif.Proofs.Interleave
import Verif.Props.Scripts
/-
  C114: results and working copies that cannot be written.
-/
set_option linter.unusedSectionVars false
namespace PyFlowGo
open Spec
variable {α : Type} [Add α] [Sub α] [Mul α] [Neg α] [OfScientific α] [PyNum α]

/-- **C114**. If every file the job may write can be opened, the job does what it does anyway. -/
theorem C114_everything_writable (M : Machine α) (job : Job) (d : Files) (may : String → Bool)
    (hnums : ∀ j f a b c, job = .sweep j f a b c → ∀ template, Holds M.F d j template → NumsAll (Readable M.F.float M.numText) template)
    (hmay : ∀ q, job.MayWrite M.F d q → may q = true) :
    ∃ r e d', (job.prog M).runWhere may d = (.ok r, e) ∧ SameFiles e d' ∧ job.result M d = r.map fun o => (o, d') := by
  obtain ⟨d', h1, h2⟩ := job_solo M job d
  refine ⟨_, _, d', runWhere_all may _ d fun q hq => hmay q ((job_touches M job d hnums q).2 hq), h1, h2⟩

/-- **C114**. When and where a job fails for a file that cannot be opened: at the first moment it is about to write such a file,
    and the disk is left as an interruption at that moment leaves it (C109). -/
theorem C114_moment_of_failure (M : Machine α) (job : Job) (d : Files) (may : String → Bool) (q : String) (e : Files) :
    (job.prog M).runWhere may d = (.error q, e) ↔
      ∃ n, nextAction (alone (job.prog M) d n).1 = .writes q ∧ may q = false ∧ (alone (job.prog M) d n).2 = e ∧
        ∀ m < n, ∀ q', nextAction (alone (job.prog M) d m).1 = .writes q' → may q' = true :=
  refused_iff may _ d q e

theorem pair_of {β γ : Type} {x : β × γ} {b : β} {P : γ → Prop} (h1 : x.1 = b) (h2 : P x.2) : ∃ c, x = (b, c) ∧ P c :=
  ⟨x.2, Prod.ext h1 rfl, h2⟩

theorem runWhere_ok {ρ : Type} (may : String → Bool) (p : Prog ρ) {d e : Files} {r : ρ} (h : p.runWhere may d = (.ok r, e)) : p.run d = (r, e) := by
  induction p generalizing d with
  | ret x => cases h; rfl
  | read q k ih => exact ih _ h
  | write q t k ih =>
    unfold Prog.runWhere at h
    split at h
    · exact ih h
    · cases h

theorem runProg_where (grid : List α) (fuel : Nat) (F : TextFormat α) (flush : List Char → List Nat) (may : String → Bool)
    (jsonFile folder : String) (d : Files) :
    (∃ q out, runTextOn grid fuel F jsonFile folder d = some (.ok (), (q, out) :: d) ∧ may q = false ∧
      (runProg grid fuel F flush jsonFile folder).runWhere may d = (.error q, d)) ∨
    ((∀ q out, runTextOn grid fuel F jsonFile folder d = some (.ok (), (q, out) :: d) → may q = true) ∧
      ∃ r e d', (runProg grid fuel F flush jsonFile folder).runWhere may d = (.ok r, e) ∧ SameDisk e d' ∧
        runTextOn grid fuel F jsonFile folder d = r.map fun o => (o, d')) := by
  obtain ⟨d1, s1, s2⟩ := run_solo grid fuel F flush jsonFile folder d
  have hrun : (runProg grid fuel F flush jsonFile folder).runWhere may d = (match ((prepareProg F jsonFile).run d).1 with
      | .error e => (.ok (some (.error e)), d)
      | .ok pr => (finishProg grid fuel F flush folder pr).runWhere may d) := by
    unfold runProg
    rw [runWhere_bind, prepare_where]
    dsimp only
    cases ((prepareProg F jsonFile).run d).1 <;> rfl
  have fine : ∀ r e, (runProg grid fuel F flush jsonFile folder).runWhere may d = (.ok r, e) →
      (∀ q out, runTextOn grid fuel F jsonFile folder d = some (.ok (), (q, out) :: d) → may q = true) →
      ((∀ q out, runTextOn grid fuel F jsonFile folder d = some (.ok (), (q, out) :: d) → may q = true) ∧
      ∃ r e d', (runProg grid fuel F flush jsonFile folder).runWhere may d = (.ok r, e) ∧ SameDisk e d' ∧
        runTextOn grid fuel F jsonFile folder d = r.map fun o => (o, d')) := by
    intro r e h hq
    have := runWhere_ok may _ h
    rw [this] at s1 s2
    exact ⟨hq, r, e, d1, h, s1, s2⟩
  have none_writes : ∀ (q : String) (out : List Char), runTextOn grid fuel F jsonFile folder d = some (.ok (), (q, out) :: d) →
      ∃ pr w t, ((prepareProg F jsonFile).run d).1 = .ok pr ∧ simulateOn grid fuel pr.integrator pr.world = some (.ok (), w) ∧
        writeValues w.log = .ok (some t) ∧ q = F.canon (resultFileName folder (pr.cfg.lavaName.show (textEnv F [])) (pr.cfg.rate.show (textEnv F []))) := by
    intro q out h
    obtain ⟨text, data, _, _, hl, hj, _⟩ := run_text_wrote F grid fuel jsonFile folder d _ h
    have hj : jsonLoad F.float text = .ok data := (jsonLoads_iff F.float _ data).mpr hj
    obtain ⟨pr, w, t, h1, h2, h3, h4, -⟩ := run_wrote_inv grid fuel F jsonFile folder d q out hl hj h
    exact ⟨pr, w, t, by rw [prepare_run F jsonFile d text data hl hj]; exact h1, h2, h3, h4⟩
  cases hp : ((prepareProg F jsonFile).run d).1 with
  | error x =>
    rw [hp] at hrun
    refine .inr (fine _ _ hrun fun q out h => ?_)
    obtain ⟨pr, _, _, h1, -⟩ := none_writes q out h
    rw [hp] at h1; cases h1
  | ok pr =>
    rw [hp] at hrun
    dsimp only at hrun
    unfold finishProg at hrun
    cases hs : simulateOn grid fuel pr.integrator pr.world with
    | none =>
      rw [hs] at hrun
      refine .inr (fine _ _ hrun fun q out h => ?_)
      obtain ⟨pr', _, _, h1, h2, -⟩ := none_writes q out h
      rw [hp] at h1; cases h1; rw [hs] at h2; cases h2
    | some o =>
      obtain ⟨o, w⟩ := o
      cases o with
      | error x =>
        rw [hs] at hrun
        refine .inr (fine _ _ hrun fun q out h => ?_)
        obtain ⟨pr', _, _, h1, h2, -⟩ := none_writes q out h
        rw [hp] at h1; cases h1; rw [hs] at h2; cases h2
      | ok u =>
        rw [hs] at hrun
        dsimp only at hrun
        cases hw : writeValues w.log with
        | error x =>
          rw [hw] at hrun
          refine .inr (fine _ _ hrun fun q out h => ?_)
          obtain ⟨pr', _, _, h1, h2, h3, -⟩ := none_writes q out h
          rw [hp] at h1; cases h1; rw [hs] at h2; cases h2; rw [hw] at h3; cases h3
        | ok t =>
          cases t with
          | none =>
            rw [hw] at hrun
            refine .inr (fine _ _ hrun fun q out h => ?_)
            obtain ⟨pr', _, _, h1, h2, h3, -⟩ := none_writes q out h
            rw [hp] at h1; cases h1; rw [hs] at h2; cases h2; rw [hw] at h3; cases h3
          | some t =>
            rw [hw] at hrun
            dsimp only at hrun
            obtain ⟨-, hval⟩ := prepared_writes grid fuel F jsonFile folder d hp hs hw
            generalize hq : F.canon (resultFileName folder (pr.cfg.lavaName.show (textEnv F [])) (pr.cfg.rate.show (textEnv F []))) = q at *
            by_cases hm : may q = true
            · obtain ⟨a, b⟩ := save_allowed may flush q (stored F.windows (t.text F.str)) (.ret ((some (Except.ok ()) : Option (Except Err Unit)))) d hm
              refine .inr (fine (some (.ok ())) _ (Prod.ext ?_ rfl) fun q' out h => ?_)
              · rw [hrun, a]; rfl
              · obtain ⟨pr', _, _, h1, -, -, h4⟩ := none_writes q' out h
                rw [hp] at h1; cases h1; rw [h4, hq]; exact hm
            · have hm : may q = false := by simpa using hm
              exact .inl ⟨q, _, hval, hm, hrun.trans (save_refused may flush _ _ _ d hm)⟩

/-- The sweep over the first rates, when everything it writes can be opened. -/
theorem loop_where (M : Machine α) (may : String → Bool) (base : Json α) (hdist : DistinctKeys base)
    (hnums : NumsAll (Readable M.F.float M.numText) base) (working folder : String) (hw : may (M.F.canon working) = true) :
    ∀ (pre rest : List Int) (names0 names : List String) (d e dm : Files), SameDisk d e →
      (∀ r ∈ pre, ∀ lava, TopEntry base "lava_name" lava → may (M.F.canon (resultFileName folder (lava.show (textEnv M.F [])) (toString r))) = true) →
      sweepTextLoop M.grid M.fuel M.F M.numText base working folder pre names0 e = some (.ok names, dm) →
      ∃ d',
        SameDisk d' dm ∧
        ((sweepLoopProg M.grid M.fuel M.F M.numText M.flush base working folder (pre ++ rest) names0).runWhere may d).1 =
        ((sweepLoopProg M.grid M.fuel M.F M.numText M.flush base working folder rest names).runWhere may d').1 ∧
        SameDisk ((sweepLoopProg M.grid M.fuel M.F M.numText M.flush base working folder (pre ++ rest) names0).runWhere may d).2
        ((sweepLoopProg M.grid M.fuel M.F M.numText M.flush base working folder rest names).runWhere may d').2 := by
  intro pre
  induction pre with
  | nil =>
    intro rest names0 names d e dm hs _ h
    unfold sweepTextLoop at h
    obtain ⟨h1, h2⟩ := Prod.mk.inj (Option.some.inj h)
    cases h1; subst h2
    exact ⟨d, hs, rfl, SameDisk.refl _⟩
  | cons r pre ih =>
    intro rest names0 names d e dm hs hmay h
    unfold sweepTextLoop at h
    rw [List.cons_append]
    generalize hgoal : (fun d' => (sweepLoopProg M.grid M.fuel M.F M.numText M.flush base working folder rest names).runWhere may d') = goal
    have hgoal := congrFun hgoal
    simp only [hgoal]
    unfold sweepLoopProg
    cases hset : base.set "effusion_rate_init" (.int r) with
    | error x => rw [hset] at h; simp at h
    | ok data =>
      rw [hset] at h
      dsimp only at h ⊢
      obtain ⟨t1, t2⟩ := set_spec _ _ _ _ hset
      have hload : JsonText M.F.float (universal (stored M.F.windows (jsonDump M.numText data))) data :=
        (jsonLoads_iff M.F.float _ data).mp (C79_round_trip M.F.float M.numText data (set_distinct hset hdist (by simp [DistinctKeys]))
          (set_nums hset hnums (by simp [NumsAll])) M.F.windows)
      generalize hk : ((runProg M.grid M.fuel M.F M.flush working folder).bind fun
          | none => .ret none
          | some (.error e) => .ret (some (.error e))
          | some (.ok _) =>
            match data.get "lava_name" with
            | .error e => .ret (some (.error e))
            | .ok nm =>
              sweepLoopProg M.grid M.fuel M.F M.numText M.flush base working folder (pre ++ rest)
                (names0 ++ [resultFileName folder (nm.show (textEnv M.F [])) (toString r)])) = k
      generalize htx : stored M.F.windows (jsonDump M.numText data) = tx at *
      obtain ⟨s1, s2⟩ := save_allowed may M.flush (M.F.canon working) tx k d hw
      have hw1 : SameDisk (writeFile d (M.F.canon working) tx) (writeFile e (M.F.canon working) tx) := hs.write _ _
      have hlk : lookup (writeFile d (M.F.canon working) tx) (M.F.canon working) = some tx := by rw [lookup_writeFile, if_pos rfl]
      generalize writeFile d (M.F.canon working) tx = d1 at *
      generalize writeFile e (M.F.canon working) tx = e1 at *
      subst hk
      rw [runWhere_bind] at s1 s2
      rcases runTextOn_same M.grid M.fuel M.F working folder hw1 with ⟨_, c2⟩ | ⟨o, x, y, c1, c2, c3⟩
      · rw [c2] at h; cases h
      rw [c2] at h
      cases o with
      | error z => simp at h
      | ok u =>
        dsimp only at h
        cases hn : data.get "lava_name" with
        | error z => rw [hn] at h; simp at h
        | ok nm =>
          rw [hn] at h
          dsimp only at h
          have hshow : nm.show (textEnv M.F y) = nm.show (textEnv M.F []) := by cases nm <;> rfl
          rw [hshow] at h
          rcases runProg_where M.grid M.fuel M.F M.flush may working folder d1 with ⟨q, out, a1, a2, _⟩ | ⟨_, z, e2, d2, b1, b2, b3⟩
          · exfalso
            obtain ⟨text, data', rate, lava, l1, l2, l3, l4, l5⟩ := run_text_wrote M.F M.grid M.fuel working folder d1 _ a1
            rw [hlk] at l1
            obtain rfl := Option.some.inj l1
            have g1 := (jsonLoads_iff M.F.float _ _).mpr l2
            rw [(jsonLoads_iff M.F.float _ _).mpr hload] at g1
            obtain rfl := (Except.ok.inj g1).symm
            have : rate = .int r := topEntry_unique l3 t1
            subst this
            have hm := hmay r (by simp) lava ((t2 _ (by decide) _).mp l4)
            rcases l5 with l5 | ⟨out', l5⟩
            · have := congrArg List.length l5; simp at this
            · obtain ⟨q1, q2⟩ := Prod.mk.inj (List.cons.inj l5).1
              have e3 : ∀ j : Json α, j.show (textEnv M.F d1) = j.show (textEnv M.F []) := fun j => by cases j <;> rfl
              rw [e3, e3] at q1
              have hi : (Json.int r : Json α).show (textEnv M.F []) = toString r := rfl
              rw [hi] at q1
              rw [← q1, a2] at hm
              cases hm
          · rw [b1] at s1 s2
            rw [c1] at b3
            cases z with
            | none => cases b3
            | some z =>
              obtain ⟨rfl, rfl⟩ := Prod.mk.inj (Option.some.inj b3)
              dsimp only at s1 s2
              rw [hn] at s1 s2
              dsimp only at s1 s2
              obtain ⟨d', p1, p2, p3⟩ := ih rest _ names e2 y dm (b2.trans c3) (fun r' hr' => hmay r' (by simp [hr'])) h
              rw [hgoal] at p2 p3
              refine ⟨d', p1, ?_, ?_⟩
              · rw [← p2, ← s1]
              · refine SameDisk.trans ?_ p3
                refine SameDisk.trans ?_ s2
                exact SameDisk.refl _

/-- **C114**. A run whose result cannot be opened computes the whole flow, then fails, and leaves the disk as it found it; every
    other run does what it does anyway. -/
theorem C114_run (M : Machine α) (jsonFile folder : String) (d : Files) (may : String → Bool) :
    (∀ q out, runTextOn M.grid M.fuel M.F jsonFile folder d = some (.ok (), (q, out) :: d) → may q = false →
      ((Job.run jsonFile folder).prog M).runWhere may d = (.error q, d)) ∧
    ((∀ q out, runTextOn M.grid M.fuel M.F jsonFile folder d = some (.ok (), (q, out) :: d) → may q = true) →
      ∃ r e d', ((Job.run jsonFile folder).prog M).runWhere may d = (.ok r, e) ∧ SameFiles e d' ∧
        (Job.run jsonFile folder).result M d = r.map fun o => (o, d')) := by
  have hprog : ((Job.run jsonFile folder).prog M).runWhere may d =
      (match (runProg M.grid M.fuel M.F M.flush jsonFile folder).runWhere may d with
        | (.ok r, d') => (.ok (r.map fun o => o.map fun _ => []), d')
        | (.error q, d') => (.error q, d')) := by
    unfold Job.prog
    rw [runWhere_bind]
    obtain ⟨a, b⟩ := (runProg M.grid M.fuel M.F M.flush jsonFile folder).runWhere may d
    cases a <;> rfl
  rw [hprog]
  rcases runProg_where M.grid M.fuel M.F M.flush may jsonFile folder d with ⟨q, out, h1, h2, h3⟩ | ⟨h1, r, e, d', h2, h3, h4⟩
  · refine ⟨fun q' out' g1 g2 => ?_, fun g => ?_⟩
    · rw [h1] at g1
      obtain ⟨q1, q2⟩ := Prod.mk.inj (List.cons.inj (Prod.mk.inj (Option.some.inj g1)).2).1
      rw [h3, q1]
    · rw [g q out h1] at h2; cases h2
  · refine ⟨fun q' out' g1 g2 => ?_, fun _ => ?_⟩
    · rw [h1 q' out' g1] at g2; cases g2
    · rw [h2]
      refine ⟨_, e, d', rfl, h3, ?_⟩
      show (runTextOn M.grid M.fuel M.F jsonFile folder d).map _ = _
      rw [h4]
      cases r <;> rfl

/-- **C114**. A sweep whose working copy cannot be opened fails before its first run and leaves the disk as it found it. -/
theorem C114_sweep_working (M : Machine α) (jsonFile folder : String) (first last step : Int) (d : Files) (may : String → Bool)
    {entries : List (String × Json α)} (hh : Holds M.F d jsonFile (.obj entries)) {rates : List Int}
    (hrates : sweepRates first last step = .ok rates) (hne : rates ≠ []) (hw : may (M.F.canon (workingFile jsonFile folder)) = false) :
    ((Job.sweep jsonFile folder first last step).prog M).runWhere may d = (.error (M.F.canon (workingFile jsonFile folder)), d) := by
  obtain ⟨text, hl, ht⟩ := hh
  have hj : jsonLoad M.F.float text = .ok (.obj entries) := (jsonLoads_iff M.F.float _ _).mpr ht
  unfold Job.prog sweepProg Prog.runWhere
  rw [hl]
  dsimp only
  rw [hj]
  dsimp only
  rw [hrates]
  dsimp only
  cases rates with
  | nil => exact absurd rfl hne
  | cons r rest =>
    have hset : ∃ data : Json α, (Json.obj entries).set "effusion_rate_init" (.int r) = .ok data := by
      unfold Json.set
      dsimp only
      split <;> exact ⟨_, rfl⟩
    obtain ⟨data, hset⟩ := hset
    unfold sweepLoopProg
    rw [hset]
    exact save_refused may M.flush _ _ _ d hw

/-- **C114**. A sweep whose working copy can be opened but the result of some rate cannot, the earlier results being no trouble:
    the sweep fails at the end of the run for that rate; the disk holds the results of the earlier rates and the working copy of
    that rate, and no later rate is tried. -/
theorem C114_sweep_result (M : Machine α) (jsonFile folder : String) (first last step : Int) (d : Files) (may : String → Bool)
    {entries : List (String × Json α)} (hh : Holds M.F d jsonFile (.obj entries)) (hnums : NumsAll (Readable M.F.float M.numText) (.obj entries))
    {pre post : List Int} {r : Int} (hrates : sweepRates first last step = .ok (pre ++ r :: post))
    (hw : may (M.F.canon (workingFile jsonFile folder)) = true)
    (hpre : ∀ r' ∈ pre, ∀ lava, TopEntry (.obj entries) "lava_name" lava →
      may (M.F.canon (resultFileName folder (lava.show (textEnv M.F [])) (toString r'))) = true)
    {last' : Int} {names : List String} {before : Files} (hearlier : sweepRates first last' step = .ok pre)
    (hbefore : (Job.sweep jsonFile folder first last' step).result M d = some (.ok names, before)) :
    ∃ data : Json α, (Json.obj entries).set "effusion_rate_init" (.int r) = .ok data ∧ WithRate (.obj entries) data r ∧
      ∀ q out, runTextOn M.grid M.fuel M.F (workingFile jsonFile folder) folder (WithWorkingCopy M (workingFile jsonFile folder) data before) =
          some (.ok (), (q, out) :: WithWorkingCopy M (workingFile jsonFile folder) data before) → may q = false →
        ∃ e, ((Job.sweep jsonFile folder first last step).prog M).runWhere may d = (.error q, e) ∧
          SameFiles e (WithWorkingCopy M (workingFile jsonFile folder) data before) := by
  obtain ⟨text, hl, ht⟩ := hh
  have hj : jsonLoad M.F.float text = .ok (.obj entries) := (jsonLoads_iff M.F.float _ _).mpr ht
  have hdist := C79_loaded_keys_distinct M.F.float text _ hj
  have hb : sweepTextLoop M.grid M.fuel M.F M.numText (.obj entries) (workingFile jsonFile folder) folder pre [] d = some (.ok names, before) := by
    have hbefore : sweepText M.grid M.fuel M.F M.numText jsonFile folder first last' step d = _ := hbefore
    unfold sweepText at hbefore
    rw [hl] at hbefore
    dsimp only at hbefore
    rw [hj] at hbefore
    dsimp only at hbefore
    rw [hearlier] at hbefore
    exact hbefore
  have hset : ∃ data : Json α, (Json.obj entries).set "effusion_rate_init" (.int r) = .ok data := by
    unfold Json.set
    dsimp only
    split <;> exact ⟨_, rfl⟩
  obtain ⟨data, hset⟩ := hset
  obtain ⟨t1, t2⟩ := set_spec _ _ _ _ hset
  refine ⟨data, hset, ⟨t1, fun k hk x => t2 k hk x⟩, fun q out hq hm => ?_⟩
  obtain ⟨d', g1, g2, g3⟩ := loop_where M may (.obj entries) hdist hnums (workingFile jsonFile folder) folder hw pre (r :: post) [] names d d before
    (SameDisk.refl d) hpre hb
  have hprog : ((Job.sweep jsonFile folder first last step).prog M).runWhere may d =
      (sweepLoopProg M.grid M.fuel M.F M.numText M.flush (.obj entries) (workingFile jsonFile folder) folder (pre ++ r :: post) []).runWhere may d := by
    unfold Job.prog sweepProg
    rw [Prog.runWhere, hl]
    dsimp only
    rw [hj]
    dsimp only
    rw [hrates]
  rw [hprog]
  have key : ∃ e, (sweepLoopProg M.grid M.fuel M.F M.numText M.flush (.obj entries) (workingFile jsonFile folder) folder (r :: post) names).runWhere may d' = (.error q, e) ∧
      SameFiles e (WithWorkingCopy M (workingFile jsonFile folder) data before) := by
    unfold sweepLoopProg
    rw [hset]
    dsimp only
    unfold WithWorkingCopy at hq ⊢
    generalize stored M.F.windows (jsonDump M.numText data) = tx at *
    obtain ⟨s1, s2⟩ := save_allowed may M.flush (M.F.canon (workingFile jsonFile folder)) tx
      ((runProg M.grid M.fuel M.F M.flush (workingFile jsonFile folder) folder).bind fun
          | none => .ret none
          | some (.error e) => .ret (some (.error e))
          | some (.ok _) =>
            match data.get "lava_name" with
            | .error e => .ret (some (.error e))
            | .ok nm =>
              sweepLoopProg M.grid M.fuel M.F M.numText M.flush (.obj entries) (workingFile jsonFile folder) folder post
                (names ++ [resultFileName folder (nm.show (textEnv M.F [])) (toString r)])) d' hw
    have hsame : SameDisk (writeFile d' (M.F.canon (workingFile jsonFile folder)) tx) ((M.F.canon (workingFile jsonFile folder), tx) :: before) := g1.write _ _
    generalize writeFile d' (M.F.canon (workingFile jsonFile folder)) tx = d1 at *
    have hrun : (runProg M.grid M.fuel M.F M.flush (workingFile jsonFile folder) folder).runWhere may d1 = (.error q, d1) := by
      rcases runProg_where M.grid M.fuel M.F M.flush may (workingFile jsonFile folder) folder ((M.F.canon (workingFile jsonFile folder), tx) :: before)
        with ⟨q', out', a1, a2, a3⟩ | ⟨a1, _⟩
      · rw [hq] at a1
        obtain ⟨q1, q2⟩ := Prod.mk.inj (List.cons.inj (Prod.mk.inj (Option.some.inj a1)).2).1
        subst q1
        obtain ⟨w1, w2⟩ := runWhere_same may (runProg M.grid M.fuel M.F M.flush (workingFile jsonFile folder) folder) hsame
        rw [a3] at w1 w2
        rcases runProg_where M.grid M.fuel M.F M.flush may (workingFile jsonFile folder) folder d1
          with ⟨q', out', b1, b2, b3⟩ | ⟨_, r', e', d'', b2, _⟩
        · rw [b3] at w1
          cases w1
          exact b3
        · rw [b2] at w1; cases w1
      · rw [a1 q out hq] at hm; cases hm
    rw [runWhere_bind, hrun] at s1 s2
    exact pair_of s1 (SameDisk.trans s2 hsame)
  obtain ⟨e, k1, k2⟩ := key
  rw [k1] at g2 g3
  exact pair_of g2 (SameDisk.trans g3 k2)

/-- **C114**. Where the results go: a result is a file of the results folder itself exactly when the name of the lava and the text
    of the rate contain no `/`; otherwise it is a file of a folder below (or elsewhere), which nothing creates. -/
theorem C114_slash (folder lava rate : String) :
    DirectlyIn folder (resultFileName folder lava rate) ↔ '/' ∉ lava.toList ∧ '/' ∉ rate.toList := by
  have hhead : ("results_flowgo_" ++ lava ++ "_" ++ rate ++ "m3s.csv").toList.head? ≠ some '/' := by
    simp [String.toList_append]
  unfold DirectlyIn resultFileName
  constructor
  · rintro ⟨name, hn, h⟩
    have h2 := pathJoin_inj hhead (fun h => hn (List.mem_of_mem_head? h)) h
    subst h2
    constructor <;> intro h <;> apply hn <;> simp [String.toList_append, h]
  · rintro ⟨h1, h2⟩
    refine ⟨_, ?_, rfl⟩
    simp [String.toList_append, h1, h2]

end PyFlowGo
