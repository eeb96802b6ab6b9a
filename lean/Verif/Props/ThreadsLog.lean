import Verif.Props.Threads
import Verif.Props.FullRun
/-
  C120: what the threads of a process find in the log they share.
-/
set_option linter.unusedSectionVars false
namespace PyFlowGo
open Spec

section
variable {α : Type} [Add α] [Sub α] [Mul α] [Neg α] [OfScientific α] [PyNum α]

theorem takes_snoc {grid : List α} {env : Env α} {s : Threads α} {sched : List Nat} {i k : Nat} {t : Task α} {rest : List Nat}
    (h : Takes grid env s sched i t rest) : Takes grid env s (sched ++ [k]) i t (rest ++ [k]) := by
  obtain ⟨before, h1, h2⟩ := h
  exact ⟨before, by rw [h1]; simp, h2⟩

theorem takes_last {grid : List α} {env : Env α} {s : Threads α} {sched : List Nat} {k : Nat} {t : Task α}
    (h : (s.exec grid env sched).tasks[k]? = some t) : Takes grid env s (sched ++ [k]) k t [] := ⟨sched, rfl, h⟩

/-- What one step of a thread other than a constructor does to the log. -/
theorem step_log (grid : List α) (env : Env α) (t : Task α) (p : Proc α) (hc : ∀ j f, t ≠ .create j f) :
    ∃ ops : List (LogOp (Cell α)), (t.step grid env p).2.log = replay p.log ops ∧
      ∀ o ∈ ops, o.name ≠ "position" ∧ ∃ n g w, t = .loop n g w ∧ w.finished = false ∧ o.position = .num w.st.pos := by
  cases t with
  | create j f => exact absurd rfl (hc j f)
  | begin j f => exact ⟨[], by rw [begin_log]; rfl, by simp⟩
  | loop n g w =>
    by_cases hf : w.finished = true
    · refine ⟨[], ?_, by simp⟩
      rw [save_step grid env n g w hf]
      unfold writtenBy
      split <;> rfl
    · obtain ⟨ops, h1, h2⟩ := step_traced g w
      refine ⟨ops, ?_, fun o ho => ⟨(h1 o ho).1, n, g, w, rfl, by simpa using hf, (h1 o ho).2⟩⟩
      unfold Task.step
      dsimp only
      rw [if_neg hf, h2 p.log]
      cases singleStep g w with
      | mk r w1 => cases r <;> rfl
  | done r => exact ⟨[], rfl, by simp⟩

/-- The rows of a log after some calls: those that were there, and those of the calls. -/
theorem replay_rows {ν : Type} [BEq ν] (ops : List (LogOp ν)) (hn : ∀ o ∈ ops, o.name ≠ "position") (log : Log ν)
    (c : Option ν) (h : c ∈ (replay log ops).getValues "position") :
    c ∈ log.getValues "position" ∨ ∃ o ∈ ops, c = some o.position := by
  induction ops generalizing log with
  | nil => exact Or.inl h
  | cons o rest ih =>
    rcases ih (fun x hx => hn x (by simp [hx])) (log.addVariable o.name o.position o.value) h with h | ⟨x, hx, h⟩
    · rcases addVariable_shape log o.name o.position o.value with ⟨pre, r, post, h2, _, _, h5⟩ | ⟨_, h3⟩
      · have hk : (r.set o.name o.value).get? "position" = r.get? "position" := by
          rw [Row.get?_set, if_neg fun e => hn o (by simp) e.symm]
        rw [h5] at h
        left
        rw [h2]
        simpa [Log.getValues, hk] using h
      · rw [h3] at h
        simp only [Log.getValues, List.map_append, List.mem_append, List.map_cons, List.map_nil, List.mem_singleton] at h
        rcases h with h | h
        · exact Or.inl h
        · refine Or.inr ⟨o, by simp, ?_⟩
          rw [h]
          unfold newRow
          rw [Row.get?_set, if_neg fun e => hn o (by simp) e.symm]
          rfl
    · exact Or.inr ⟨x, by simp [hx], h⟩

theorem noConstructor_prefix {grid : List α} {env : Env α} {s : Threads α} {sched : List Nat} {k : Nat}
    (h : NoConstructor grid env s (sched ++ [k])) : NoConstructor grid env s sched :=
  fun i j f rest ht => h i j f _ (takes_snoc ht)

/-- One step of the process between two constructors. -/
theorem threads_exec_log (grid : List α) (env : Env α) (s : Threads α) (sched : List Nat) (k : Nat)
    (h : NoConstructor grid env s (sched ++ [k])) :
    ∃ ops : List (LogOp (Cell α)), (s.exec grid env (sched ++ [k])).proc.log = replay (s.exec grid env sched).proc.log ops ∧
      ∀ o ∈ ops, o.name ≠ "position" ∧ ∃ n g w, Takes grid env s (sched ++ [k]) k (.loop n g w) [] ∧ w.finished = false ∧
        o.position = .num w.st.pos := by
  rw [threads_exec_snoc]
  cases ht : (s.exec grid env sched).tasks[k]? with
  | none => exact ⟨[], by rw [threads_step_none ht]; rfl, by simp⟩
  | some t =>
    have hc : ∀ j f, t ≠ .create j f := by
      intro j f e
      subst e
      exact h k j f [] (takes_last ht)
    obtain ⟨ops, h1, h2⟩ := step_log grid env t (s.exec grid env sched).proc hc
    refine ⟨ops, by rw [threads_step_some ht]; exact h1, fun o ho => ?_⟩
    obtain ⟨h3, n, g, w, rfl, h4, h5⟩ := h2 o ho
    exact ⟨h3, n, g, w, takes_last ht, h4, h5⟩

/-- **C120**. The rows of the shared log come from all threads alike: every row that is in the log after a schedule without
    constructors was there before, or is at a position where some thread, whichever, executed a `single_step`. -/
theorem C120_rows_of_all (grid : List α) (env : Env α) (s : Threads α) (sched : List Nat) (h : NoConstructor grid env s sched)
    (c : Option (Cell α)) (hc : c ∈ (s.exec grid env sched).proc.log.getValues "position") :
    c ∈ s.proc.log.getValues "position" ∨
      ∃ i n g w rest, Takes grid env s sched i (.loop n g w) rest ∧ w.finished = false ∧ c = some (.num w.st.pos) := by
  induction sched using List.reverseRecOn generalizing c with
  | nil => exact Or.inl hc
  | append_singleton sched k ih =>
    obtain ⟨ops, h1, h2⟩ := threads_exec_log grid env s sched k h
    rw [h1] at hc
    rcases replay_rows ops (fun o ho => (h2 o ho).1) _ c hc with hc | ⟨o, ho, rfl⟩
    · rcases ih (noConstructor_prefix h) c hc with h3 | ⟨i, n, g, w, rest, h3, h4, h5⟩
      · exact Or.inl h3
      · exact Or.inr ⟨i, n, g, w, _, takes_snoc h3, h4, h5⟩
    · obtain ⟨_, n, g, w, h3, h4, h5⟩ := h2 o ho
      exact Or.inr ⟨k, n, g, w, [], h3, h4, by rw [h5]⟩

/-- **C120**. Between two constructors no row is lost, whoever wrote it. -/
theorem C120_rows_stay (grid : List α) (env : Env α) (s : Threads α) (sched : List Nat) (h : NoConstructor grid env s sched) :
    s.proc.log.getValues "position" <+: (s.exec grid env sched).proc.log.getValues "position" := by
  induction sched using List.reverseRecOn with
  | nil => exact List.prefix_rfl
  | append_singleton sched k ih =>
    obtain ⟨ops, h1, h2⟩ := threads_exec_log grid env s sched k h
    rw [h1]
    exact (ih (noConstructor_prefix h)).trans (positions_prefix ops (fun o ho => (h2 o ho).1) _)

/-- **C120**. After any thread's constructor the log holds only rows of steps executed since: whatever a run had logged before is not in
    the file it writes later, unless some thread executed a step at the same position again. -/
theorem C120_rows_since_the_last_constructor (grid : List α) (env : Env α) (s : Threads α) (before after : List Nat) (k : Nat) (j f : String)
    (hk : (s.exec grid env before).tasks[k]? = some (.create j f))
    (h : NoConstructor grid env (s.exec grid env (before ++ [k])) after)
    (c : Option (Cell α)) (hc : c ∈ (s.exec grid env (before ++ k :: after)).proc.log.getValues "position") :
    ∃ i n g w rest, Takes grid env (s.exec grid env (before ++ [k])) after i (.loop n g w) rest ∧ w.finished = false ∧
      c = some (.num w.st.pos) := by
  have e : s.exec grid env (before ++ k :: after) = (s.exec grid env (before ++ [k])).exec grid env after := by
    rw [← threads_exec_append, List.append_assoc]
    rfl
  rw [e] at hc
  rcases C120_rows_of_all grid env _ after h c hc with h1 | h1
  · have e2 : (s.exec grid env (before ++ [k])).proc.log = [] := by
      rw [threads_exec_snoc, threads_step_some hk]
      rfl
    rw [e2] at h1
    simp [Log.getValues] at h1
  · exact h1

theorem quiet_prefix {grid : List α} {env : Env α} {s : Threads α} {sched : List Nat} {i k : Nat}
    (h : OthersQuiet grid env s (sched ++ [k]) i) : OthersQuiet grid env s sched i :=
  fun m t rest hm ht => h m t _ hm (takes_snoc ht)

/-- **C120**. If, while thread `i` is under way, the others do nothing but prepare their runs, write their files and end, then `i` is
    undisturbed: at every moment its state, the log and every file it has written are those of the run alone. -/
theorem C120_undisturbed (grid : List α) (env : Env α) (s : Threads α) (sched : List Nat) (i : Nat) (t : Task α)
    (hi : s.tasks[i]? = some t) (h : OthersQuiet grid env s sched i) :
    (s.exec grid env sched).tasks[i]? = some (solo grid env t s.proc (sched.count i)).1 ∧
      (s.exec grid env sched).proc.log = (solo grid env t s.proc (sched.count i)).2.log ∧
      ∀ r ∈ (solo grid env t s.proc (sched.count i)).2.results, r ∈ (s.exec grid env sched).proc.results := by
  induction sched using List.reverseRecOn with
  | nil => exact ⟨hi, rfl, fun r hr => hr⟩
  | append_singleton sched k ih =>
    obtain ⟨h1, h2, h3⟩ := ih (quiet_prefix h)
    rw [threads_exec_snoc, List.count_append]
    by_cases hk : k = i
    · subst hk
      rw [show List.count k [k] = 1 by simp]
      have hj : (s.exec grid env sched).proc.json = (solo grid env t s.proc (sched.count k)).2.json := by rw [threads_exec_json, solo_json]
      rw [threads_step_some h1]
      obtain ⟨hlt, _⟩ := List.getElem?_eq_some_iff.mp h1
      generalize hq : (s.exec grid env sched).proc = q at *
      generalize ha : solo grid env t s.proc (sched.count k) = a at *
      have ha' : solo grid env t s.proc (sched.count k + 1) = a.1.step grid env a.2 := by
        show (solo grid env t s.proc (sched.count k)).1.step grid env (solo grid env t s.proc (sched.count k)).2 = _
        rw [ha]
      rw [ha']
      obtain ⟨b, p⟩ := a
      obtain ⟨qj, qr, ql⟩ := q
      obtain ⟨pj, pr, pl⟩ := p
      dsimp only at hj h2 h3 ⊢
      subst hj
      subst h2
      have key : (b.step grid env ⟨qj, qr, ql⟩).1 = (b.step grid env ⟨qj, pr, ql⟩).1 ∧
          (b.step grid env ⟨qj, qr, ql⟩).2.log = (b.step grid env ⟨qj, pr, ql⟩).2.log ∧
          ∀ r ∈ (b.step grid env ⟨qj, pr, ql⟩).2.results, r ∈ (b.step grid env ⟨qj, qr, ql⟩).2.results := by
        cases b with
        | create j f => exact ⟨rfl, rfl, h3⟩
        | begin j f =>
          unfold Task.step
          dsimp only
          split
          · exact ⟨rfl, rfl, h3⟩
          · split
            · exact ⟨rfl, rfl, h3⟩
            · split <;> exact ⟨rfl, rfl, h3⟩
        | loop n g w =>
          by_cases hf : w.finished = true
          · rw [save_step grid env n g w hf, save_step grid env n g w hf]
            unfold writtenBy
            dsimp only
            cases writeValues ql with
            | error e => exact ⟨rfl, rfl, h3⟩
            | ok o =>
              cases o with
              | none => exact ⟨rfl, rfl, h3⟩
              | some tb =>
                refine ⟨rfl, rfl, fun r hr => ?_⟩
                unfold writeFile at hr ⊢
                rcases List.mem_cons.mp hr with hr | hr
                · exact List.mem_cons.mpr (Or.inl hr)
                · exact List.mem_cons.mpr (Or.inr (h3 r hr))
          · unfold Task.step
            dsimp only
            rw [if_neg hf, if_neg hf]
            cases singleStep g { w with log := ql } with
            | mk r w1 => cases r <;> exact ⟨rfl, rfl, h3⟩
        | done r => exact ⟨rfl, rfl, h3⟩
      refine ⟨?_, key.2.1, key.2.2⟩
      simp [hlt, key.1]
    · rw [show List.count i [k] = 0 by simp [hk], Nat.add_zero]
      refine ⟨by rw [threads_step_other hk]; exact h1, ?_⟩
      cases hkt : (s.exec grid env sched).tasks[k]? with
      | none => rw [threads_step_none hkt]; exact ⟨h2, h3⟩
      | some b =>
        have hq := h k b [] hk (takes_last hkt)
        rw [threads_step_some hkt]
        cases b with
        | create j f => exact hq.elim
        | begin j f => rw [begin_log]; exact ⟨h2, h3⟩
        | loop n g w =>
          rw [save_step grid env n g w hq]
          unfold writtenBy
          dsimp only
          split
          · exact ⟨h2, h3⟩
          · exact ⟨h2, h3⟩
          · exact ⟨h2, fun r hr => List.mem_cons.mpr (Or.inr (h3 r hr))⟩
        | done r => exact ⟨h2, h3⟩

/-- **C120**. Two runs at the same time: both runners are constructed, the first run executes its steps, then the second, then both
    write their files. Both files (or both exceptions) come from the one log that has the rows of both runs: the log of the
    second run on top of that of the first, as if one runner had been used for both. -/
theorem C120_mixed (grid : List α) (env : Env α) (p : Proc α) (j f j' f' : String) (a b : Nat) (n n' : String) (g g' : Integrator α)
    (w w' : World α) (q q' : Proc α)
    (ha : solo grid env (.begin j f) (newRunner p) a = (.loop n g w, q)) (hf : w.finished = true)
    (hb : solo grid env (.begin j' f') q b = (.loop n' g' w', q')) (hf' : w'.finished = true) :
    (⟨[.create j f, .create j' f'], p⟩ : Threads α).exec grid env ([0, 1] ++ List.replicate a 0 ++ List.replicate b 1 ++ [0, 1]) =
      ⟨[.done (writtenBy env n q').1, .done (writtenBy env n' (writtenBy env n q').2).1], (writtenBy env n' (writtenBy env n q').2).2⟩ := by
  rw [threads_exec_append, threads_exec_append, threads_exec_append]
  have e1 : (⟨[.create j f, .create j' f'], p⟩ : Threads α).exec grid env [0, 1] = ⟨[.begin j f, .begin j' f'], newRunner p⟩ := rfl
  rw [e1, threads_exec_replicate grid env _ 0 (.begin j f) rfl a, ha]
  have e2 : ∀ x y : Task α, ∀ z : Task α, [x, y].set 0 z = [z, y] := fun _ _ _ => rfl
  have e3 : ∀ x y : Task α, ∀ z : Task α, [x, y].set 1 z = [x, z] := fun _ _ _ => rfl
  rw [e2, threads_exec_replicate grid env _ 1 (.begin j' f') rfl b, hb, e3, threads_exec_cons, threads_step_some (t := .loop n g w) rfl, threads_exec_cons,
    threads_step_some (t := .loop n' g' w') rfl]
  dsimp only
  rw [save_step grid env n g w hf, save_step grid env n' g' w' hf']
  rfl

/-- The steps of a thread whose simulation comes to its end. -/
theorem begin_end (grid : List α) (env : Env α) (j f : String) (fuel : Nat) (p : Proc α) (data : Json α) (pr : Prepared α) (w : World α)
    (hdata : lookup p.json (env.canon j) = some data) (hprep : prepare env data p.log = .ok pr)
    (hsim : simulateOn grid fuel pr.integrator pr.world = some (.ok (), w)) :
    w.finished = true ∧ ∃ a, solo grid env (.begin j f) p a =
      (.loop (resultFileName f (pr.cfg.lavaName.show env) (pr.cfg.rate.show env)) pr.integrator w, { p with log := w.log }) := by
  have hlog := initEffusion_log pr.integrator.models.lava grid pr.world
  rw [prepare_log hprep] at hlog
  unfold simulateOn at hsim
  cases hi : initEffusionRateOn grid pr.integrator.models.lava pr.world with
  | mk r1 w1 =>
    rw [hi] at hlog hsim
    cases r1 with
    | error e => simp at hsim
    | ok u =>
      dsimp only at hlog hsim
      have hpp : ({ p with log := w1.log } : Proc α) = p := by rw [hlog]
      have hs : (Task.begin j f : Task α).step grid env p =
          (.loop (resultFileName f (pr.cfg.lavaName.show env) (pr.cfg.rate.show env)) pr.integrator w1, p) := by
        unfold Task.step
        dsimp only
        rw [hdata]
        dsimp only
        rw [hprep]
        dsimp only
        rw [hi]
        dsimp only
        rw [hpp]
      obtain ⟨h1, k, _, h2⟩ := (loop_alone grid env (resultFileName f (pr.cfg.lavaName.show env) (pr.cfg.rate.show env)) pr.integrator fuel w1 p
        hlog.symm).1 w hsim
      exact ⟨h1, k + 1, by rw [solo_first, hs]; exact h2⟩

/-- **C120**. The same in terms of two configurations: the first simulation ends with `w`, the second one, executed on the log of the
    first, with `w'`. Then there is a schedule after which both runs have written, or have failed to write, the log of `w'`. -/
theorem C120_mixed_runs (grid : List α) (env : Env α) (p : Proc α) (j f j' f' : String) (fuel fuel' : Nat) (data data' : Json α)
    (pr pr' : Prepared α) (w w' : World α)
    (h1 : lookup p.json (env.canon j) = some data) (h2 : prepare env data [] = .ok pr)
    (h3 : simulateOn grid fuel pr.integrator pr.world = some (.ok (), w))
    (h4 : lookup p.json (env.canon j') = some data') (h5 : prepare env data' w.log = .ok pr')
    (h6 : simulateOn grid fuel' pr'.integrator pr'.world = some (.ok (), w')) :
    ∃ sched,
      (∀ e, writeValues w'.log = .error e →
        (⟨[.create j f, .create j' f'], p⟩ : Threads α).exec grid env sched =
          ⟨[.done (.error e), .done (.error e)], { p with log := w'.log }⟩) ∧
      (∀ t, writeValues w'.log = .ok (some t) →
        (⟨[.create j f, .create j' f'], p⟩ : Threads α).exec grid env sched =
          ⟨[.done (.ok ()), .done (.ok ())], { p with log := w'.log, results :=
            (env.canon (resultFileName f' (pr'.cfg.lavaName.show env) (pr'.cfg.rate.show env)), t) ::
            (env.canon (resultFileName f (pr.cfg.lavaName.show env) (pr.cfg.rate.show env)), t) :: p.results }⟩) := by
  obtain ⟨hf, a, ha⟩ := begin_end grid env j f fuel (newRunner p) data pr w h1 h2 h3
  obtain ⟨hf', b, hb⟩ := begin_end grid env j' f' fuel' { newRunner p with log := w.log } data' pr' w' h4 h5 h6
  refine ⟨[0, 1] ++ List.replicate a 0 ++ List.replicate b 1 ++ [0, 1], fun e he => ?_, fun t ht => ?_⟩
  · rw [C120_mixed grid env p j f j' f' a b _ _ _ _ w w' _ _ ha hf hb hf']
    unfold writtenBy
    dsimp only
    rw [he]
    dsimp only
    rw [he]
    rfl
  · rw [C120_mixed grid env p j f j' f' a b _ _ _ _ w w' _ _ ha hf hb hf']
    unfold writtenBy
    dsimp only
    rw [ht]
    dsimp only
    rw [ht]
    rfl

end

theorem replay_has_position {ν : Type} [BEq ν] [LawfulBEq ν] (p : ν) (es : List (String × ν)) (hne : es ≠ [])
    (hn : ∀ e ∈ es, e.1 ≠ "position") (log : Log ν) : some p ∈ (log.addAll p es).getValues "position" := by
  cases es with
  | nil => exact absurd rfl hne
  | cons e rest =>
    rw [replay_addAll]
    refine (positions_prefix (rest.map fun e => ⟨e.1, p, e.2⟩) ?_ (log.addVariable e.1 p e.2)).subset ?_
    · intro o ho
      obtain ⟨x, hx, rfl⟩ := List.mem_map.mp ho
      exact hn x (by simp [hx])
    · have hp : e.1 ≠ "position" := hn e (by simp)
      rcases addVariable_shape log e.1 p e.2 with ⟨pre, r, post, h2, h3, _, h5⟩ | ⟨_, h3⟩
      · rw [h5]
        have hk : (r.set e.1 e.2).get? "position" = r.get? "position" := by rw [Row.get?_set, if_neg fun h => hp h.symm]
        unfold Row.atPosition at h3
        cases hr : r.get? "position" with
        | none => rw [hr] at h3; cases h3
        | some q =>
          rw [hr] at h3
          have : p = q := eq_of_beq h3
          subst this
          simp [Log.getValues, hk, hr]
      · rw [h3]
        have hk : (newRow e.1 p e.2).get? "position" = some p := by
          unfold newRow
          rw [Row.get?_set, if_neg fun h => hp h.symm]
          rfl
        simp [Log.getValues, hk]

/-- **C120**. Conversely, once any thread has executed a step that was accepted, the shared log has a row at its position until the
    next constructor: it goes into the file of every run that ends in between, whosoever. -/
theorem C120_every_accepted_row (grid : List ℝ) (env : Env ℝ) (s : Threads ℝ) (sched rest : List Nat) (i : Nat) (n : String) (g : Integrator ℝ)
    (w w' : World ℝ) (ht : Takes grid env s sched i (.loop n g w) rest) (ha : AcceptedStep g w w')
    (h : NoConstructor grid env s sched) :
    some (.num w.st.pos) ∈ (s.exec grid env sched).proc.log.getValues "position" := by
  obtain ⟨before, rfl, h2⟩ := ht
  have e : s.exec grid env (before ++ i :: rest) = (s.exec grid env (before ++ [i])).exec grid env rest := by
    rw [← threads_exec_append, List.append_assoc]
    rfl
  have hno : NoConstructor grid env (s.exec grid env (before ++ [i])) rest := by
    rintro k j f r ⟨b, h3, h4⟩
    refine h k j f r ⟨before ++ i :: b, by rw [h3]; simp, ?_⟩
    rw [← threads_exec_append, List.append_assoc] at h4
    exact h4
  rw [e]
  refine (C120_rows_stay grid env _ rest hno).subset ?_
  rw [threads_exec_snoc, threads_step_some h2]
  generalize (s.exec grid env before).proc = q
  obtain ⟨ops, _, hops⟩ := step_traced g w
  have hstep : singleStep g { w with log := q.log } = (.ok (), { w' with log := replay q.log ops }) := by
    rw [hops q.log, ha.2.1]
  have ha' : AcceptedStep g { w with log := q.log } { w' with log := replay q.log ops } := ⟨ha.1, hstep, ha.2.2⟩
  obtain ⟨es, hes, hn, hlog⟩ := accepted_log ha'
  have hne : es ≠ [] := by
    intro h0
    rw [h0] at hes
    simp at hes
  have hl : ((Task.loop n g w).step grid env q).2.log = Log.addAll q.log (.num w.st.pos) es := by
    unfold Task.step
    dsimp only
    rw [if_neg (by rw [ha.1]; exact Bool.false_ne_true), hstep]
    exact hlog
  dsimp only
  rw [hl]
  exact replay_has_position _ es hne hn _

/-- **C120**. Two runs that both end normally alone and write a file each; in threads of one process there is a schedule in which both
    raise ValueError and neither leaves a result. -/
theorem C120_both_can_fail (grid : List ℝ) :
    (∃ p1, runOn grid 1 exEnv "dry.json" "a" (newRunner exProc) = some (.ok (), p1) ∧ p1.results ≠ []) ∧
    (∃ p2, runOn grid 1 exEnv "rain.json" "b" (newRunner exProc) = some (.ok (), p2) ∧ p2.results ≠ []) ∧
    ∃ sched, ((⟨[.create "dry.json" "a", .create "rain.json" "b"], exProc⟩ : Threads ℝ).exec grid exEnv sched).tasks =
        [.done (.error .valueError), .done (.error .valueError)] ∧
      ((⟨[.create "dry.json" "a", .create "rain.json" "b"], exProc⟩ : Threads ℝ).exec grid exEnv sched).proc.results = [] := by
  obtain ⟨t, h1, _⟩ := exDry_runs grid "a"
  obtain ⟨p2, t2, h2, h3, _⟩ := exRain_runs grid "b"
  refine ⟨⟨_, h1, by simp⟩, ⟨p2, h2, by rw [h3]; simp⟩, ?_⟩
  obtain ⟨w0, h4, h5⟩ := exDryRun (.num 0) 0 0 1 [] grid (Or.inl rfl)
  rw [dry_addAll] at h5
  obtain ⟨w, r, h6, h7, h8⟩ := exRain_log grid dryLog (by
    intro r hr
    simp only [dryLog, List.mem_singleton] at hr
    rw [hr, Bool.eq_false_iff]
    simp [Row.atPosition, Row.get?])
  have hw : writeValues w.log = .error .valueError := by
    have hk : csvRow ["position", "heat_budget"] r = .error .valueError := by
      unfold csvRow
      rw [if_neg]
      rw [List.all_eq_true]
      intro h
      have := h _ h8
      revert this
      decide
    rw [h7]
    show (do let rows ← List.mapM (csvRow ["position", "heat_budget"]) (dryLog ++ [r])
             return some (CsvTable.mk ["position", "heat_budget"] rows)) = Except.error Err.valueError
    rw [List.mapM_append]
    simp only [dryLog, List.mapM_cons, List.mapM_nil, hk]
    rfl
  obtain ⟨sched, h9, _⟩ := C120_mixed_runs grid exEnv exProc "dry.json" "a" "rain.json" "b" 1 1 _ _ _ _ w0 w rfl (exPrepare_dry []) h4 rfl
    (by rw [h5]; exact exPrepare_rain dryLog) h6
  refine ⟨sched, ?_⟩
  rw [h9 _ hw]
  exact ⟨rfl, rfl⟩

/-- A process with two configurations that differ only in where the vent is: at 0 m and at 7 m. -/
noncomputable def vents : Proc ℝ :=
  { json := [("a.json", exConfigR (.num 0) (exNum 0 1) (exChoiceRain "no" "basic")),
             ("b.json", exConfigR (.num 0) (exNum 7 8) (exChoiceRain "no" "basic"))]
    results := [], log := [] }

/-- **C120**. Or nothing is raised and the files are wrong: alone each of the two runs writes one line, its own vent; in threads there is
    a schedule in which both end normally and both files show both vents. -/
theorem C120_both_can_be_wrong (grid : List ℝ) :
    (∃ t, runOn grid 1 exEnv "a.json" "a" (newRunner vents) = some (.ok (),
      { vents with log := dryLog, results := [(resultFileName "a" "example" "x", t)] }) ∧ t.rows = [[some (.num 0), some (.num 0)]]) ∧
    (∃ p2 t, runOn grid 1 exEnv "b.json" "b" (newRunner vents) = some (.ok (), p2) ∧
      p2.results = [(resultFileName "b" "example" "x", t)] ∧ t.rows = [[some (.num 7), some (.num 0)]]) ∧
    ∃ sched t, ((⟨[.create "a.json" "a", .create "b.json" "b"], vents⟩ : Threads ℝ).exec grid exEnv sched).tasks =
        [.done (.ok ()), .done (.ok ())] ∧
      ((⟨[.create "a.json" "a", .create "b.json" "b"], vents⟩ : Threads ℝ).exec grid exEnv sched).proc.results =
        [(resultFileName "b" "example" "x", t), (resultFileName "a" "example" "x", t)] ∧
      t.rows = [[some (.num 0), some (.num 0)], [some (.num 7), some (.num 0)]] := by
  have prepB : ∀ log, prepare exEnv (exConfigR (.num 0) (exNum 7 8) (exChoiceRain "no" "basic")) log =
      .ok (exPrepared (.num 0) 0 7 8 (exModelsOf (.basic 0 1 0 1000) []) log) :=
    fun log => exPrepare (.num 0) 0 7 8 rfl "no" "basic" _ _ (exCryst (.num 0) 7 8 "no") (Or.inr ⟨rfl, rfl⟩) log
  obtain ⟨w0, h1, h2⟩ := exDryRun (.num 0) 0 0 1 [] grid (Or.inl rfl)
  rw [dry_addAll] at h2
  obtain ⟨w1, h3, h4⟩ := exDryRun (.num 0) 0 7 8 [] grid (Or.inl rfl)
  obtain ⟨w2, h5, h6⟩ := exDryRun (.num 0) 0 7 8 dryLog grid (Or.inl rfl)
  have e1 : Log.addAll ([] : Log (Cell ℝ)) (.num 7) [("heat_budget", .num 0)] = [[("position", .num 7), ("heat_budget", .num 0)]] := by
    simp [Log.addAll, Log.addVariable, newRow, Row.set]
  have e2 : Log.addAll dryLog (.num 7) [("heat_budget", .num 0)] =
      [[("position", .num 0), ("heat_budget", .num 0)], [("position", .num 7), ("heat_budget", .num 0)]] := by
    have hp : Row.atPosition ([("position", .num 0), ("heat_budget", .num 0)] : Row (Cell ℝ)) (.num 7) = false := by
      rw [Bool.eq_false_iff]
      simp [Row.atPosition, Row.get?]
    show Log.addVariable dryLog "heat_budget" (.num 7) (.num 0) = _
    unfold dryLog Log.addVariable
    rw [hp]
    simp [Log.addVariable, newRow, Row.set]
  rw [e1] at h4
  rw [e2] at h6
  have hw0 : writeValues w0.log = .ok (some ⟨["position", "heat_budget"], [[some (.num 0), some (.num 0)]]⟩) := by rw [h2]; rfl
  have hw1 : writeValues w1.log = .ok (some ⟨["position", "heat_budget"], [[some (.num 7), some (.num 0)]]⟩) := by rw [h4]; rfl
  have hw2 : writeValues w2.log = .ok (some ⟨["position", "heat_budget"],
      [[some (.num 0), some (.num 0)], [some (.num 7), some (.num 0)]]⟩) := by rw [h6]; rfl
  have r0 := (runOn_of (p := newRunner vents) (jsonFile := "a.json") (folder := "a") rfl (exPrepare_dry []) h1).1 _ hw0
  have r1 := (runOn_of (p := newRunner vents) (jsonFile := "b.json") (folder := "b") rfl (prepB []) h3).1 _ hw1
  refine ⟨⟨⟨["position", "heat_budget"], [[some (.num 0), some (.num 0)]]⟩, ?_, rfl⟩, ⟨_, _, r1, rfl, rfl⟩, ?_⟩
  · rw [r0, h2]; rfl
  · obtain ⟨sched, _, h9⟩ := C120_mixed_runs grid exEnv vents "a.json" "a" "b.json" "b" 1 1 _ _ _ _ w0 w2 rfl (exPrepare_dry []) h1 rfl
      (by rw [h2]; exact prepB dryLog) h5
    refine ⟨sched, ⟨["position", "heat_budget"], [[some (.num 0), some (.num 0)], [some (.num 7), some (.num 0)]]⟩, ?_, ?_, rfl⟩
    · rw [h9 _ hw2]
    · rw [h9 _ hw2]; rfl

/-- **C120**: hypotheses met. A thread in company of another one that only prepares its run: undisturbed. -/
example : OthersQuiet ([] : List ℝ) exEnv ⟨[.create "a.json" "a", .begin "b.json" "b"], vents⟩ [0, 1, 0] 0 := by
  rintro k t rest hk ⟨before, h1, h2⟩
  have hb : before = [0] ∧ k = 1 := by
    match before, h1 with
    | [], h1 => simp at h1; exact absurd h1.1.symm hk
    | [x], h1 => simp at h1; exact ⟨by rw [h1.1], h1.2.1.symm⟩
    | [x, y], h1 => simp at h1; exact absurd h1.2.2.1.symm hk
    | x :: y :: z :: r, h1 => simp at h1
  obtain ⟨rfl, rfl⟩ := hb
  have : t = .begin "b.json" "b" := (Option.some.inj h2).symm
  rw [this]
  trivial

/-- **C120**: hypotheses met. A constructor while the other run is at its end. -/
example (grid : List ℝ) : ∃ sched, ((⟨[.create "a.json" "a", .create "b.json" "b"], vents⟩ : Threads ℝ).exec grid exEnv sched).tasks[0]? =
      some (.done (.ok ())) ∧
    ((⟨[.create "a.json" "a", .create "b.json" "b"], vents⟩ : Threads ℝ).exec grid exEnv sched).proc.results = [] := by
  obtain ⟨⟨t, h, _⟩, _⟩ := C120_both_can_be_wrong grid
  exact C120_can_lose_the_file grid 1 exEnv vents _ "a.json" "a" "b.json" "b" h

end PyFlowGo
