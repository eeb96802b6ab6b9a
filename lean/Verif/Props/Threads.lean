import Verif.Proofs.Threads
/-
  C120: several runs in the threads of one process.
-/
set_option linter.unusedSectionVars false
namespace PyFlowGo
open Spec
variable {α : Type} [Add α] [Sub α] [Mul α] [Neg α] [OfScientific α] [PyNum α]

/-! ### A thread alone in its process is a call of `run` -/

theorem solo_add (grid : List α) (env : Env α) (t : Task α) (p : Proc α) (a b : Nat) :
    solo grid env t p (a + b) = solo grid env (solo grid env t p a).1 (solo grid env t p a).2 b := by
  induction b with
  | zero => rfl
  | succ b ih =>
    rw [← Nat.add_assoc]
    unfold solo
    rw [ih]

theorem solo_first (grid : List α) (env : Env α) (t : Task α) (p : Proc α) (b : Nat) :
    solo grid env t p (b + 1) = solo grid env (t.step grid env p).1 (t.step grid env p).2 b := by
  rw [Nat.add_comm, solo_add]
  rfl

theorem solo_done (grid : List α) (env : Env α) (r : Except Err Unit) (p : Proc α) (k : Nat) :
    solo grid env (.done r) p k = (.done r, p) := by
  induction k with
  | zero => rfl
  | succ k ih => unfold solo; rw [ih]; rfl

theorem solo_done_from {grid : List α} {env : Env α} {t : Task α} {p p' : Proc α} {r : Except Err Unit} {k : Nat}
    (h : solo grid env t p k = (.done r, p')) (m : Nat) : solo grid env t p (k + m) = (.done r, p') := by
  rw [solo_add, h]
  exact solo_done grid env r p' m

theorem loop_step {grid : List α} {env : Env α} {name : String} {g : Integrator α} {w : World α} {p : Proc α}
    (hf : w.finished = false) (hl : p.log = w.log) :
    (Task.loop name g w).step grid env p =
      match singleStep g w with
      | (.error e, w') => (.done (.error e), { p with log := w'.log })
      | (.ok _, w') => (.loop name g w', { p with log := w'.log }) := by
  have e : ({ w with log := p.log } : World α) = w := by rw [hl]
  unfold Task.step
  dsimp only
  rw [if_neg (by rw [hf]; exact Bool.false_ne_true), e]
  cases singleStep g w with
  | mk r w1 => cases r <;> rfl

theorem loop_alone (grid : List α) (env : Env α) (name : String) (g : Integrator α) (n : Nat) (w : World α) (p : Proc α)
    (hl : p.log = w.log) :
    (∀ w', runLoop g n w = some (.ok (), w') → w'.finished = true ∧
      ∃ k ≤ n, solo grid env (.loop name g w) p k = (.loop name g w', { p with log := w'.log })) ∧
    (∀ e w', runLoop g n w = some (.error e, w') →
      ∃ k ≤ n, solo grid env (.loop name g w) p k = (.done (.error e), { p with log := w'.log })) ∧
    (runLoop g n w = none → ∃ w', w'.finished = false ∧ (solo grid env (.loop name g w) p n).1 = .loop name g w') := by
  have hp : ({ p with log := w.log } : Proc α) = p := by rw [← hl]
  induction n generalizing w p with
  | zero =>
    unfold runLoop
    by_cases hf : w.finished = true
    · rw [if_pos hf]
      refine ⟨fun w' h => ?_, fun e w' h => ?_, fun h => ?_⟩
      · simp only [Option.some.injEq, Prod.mk.injEq, true_and] at h
        subst h
        exact ⟨hf, 0, Nat.le_refl _, by rw [hp]; rfl⟩
      · simp at h
      · cases h
    · rw [if_neg hf]
      refine ⟨fun w' h => (by cases h), fun e w' h => (by cases h), fun _ => ⟨w, by simpa using hf, rfl⟩⟩
  | succ n ih =>
    unfold runLoop
    by_cases hf : w.finished = true
    · rw [if_pos hf]
      refine ⟨fun w' h => ?_, fun e w' h => ?_, fun h => ?_⟩
      · simp only [Option.some.injEq, Prod.mk.injEq, true_and] at h
        subst h
        exact ⟨hf, 0, Nat.zero_le _, by rw [hp]; rfl⟩
      · simp at h
      · cases h
    · rw [if_neg hf]
      have hs := loop_step (grid := grid) (env := env) (name := name) (g := g) (w := w) (p := p) (by simpa using hf) hl
      cases h1 : singleStep g w with
      | mk r w1 =>
        rw [h1] at hs
        cases r with
        | error e =>
          dsimp only at hs ⊢
          refine ⟨fun w' h => (by simp at h), fun e' w' h => ?_, fun h => by cases h⟩
          simp only [Option.some.injEq, Prod.mk.injEq, Except.error.injEq] at h
          obtain ⟨rfl, rfl⟩ := h
          exact ⟨1, by omega, hs⟩
        | ok u =>
          dsimp only at hs ⊢
          obtain ⟨i1, i2, i3⟩ := ih w1 { p with log := w1.log } rfl rfl
          refine ⟨fun w' h => ?_, fun e' w' h => ?_, fun h => ?_⟩
          · obtain ⟨h2, k, hk, h3⟩ := i1 w' h
            exact ⟨h2, k + 1, by omega, by rw [solo_first, hs]; exact h3⟩
          · obtain ⟨k, hk, h3⟩ := i2 e' w' h
            exact ⟨k + 1, by omega, by rw [solo_first, hs]; exact h3⟩
          · obtain ⟨w', h2, h3⟩ := i3 h
            exact ⟨w', h2, by rw [solo_first, hs]; exact h3⟩

/-- What the last step of a run writes. -/
def writtenBy (env : Env α) (name : String) (p : Proc α) : Except Err Unit × Proc α :=
  match writeValues p.log with
  | .error e => (.error e, p)
  | .ok none => (.ok (), p)
  | .ok (some t) => (.ok (), { p with results := writeFile p.results (env.canon name) t })

theorem save_step (grid : List α) (env : Env α) (name : String) (g : Integrator α) (w : World α) (hf : w.finished = true) (p : Proc α) :
    (Task.loop name g w).step grid env p = (.done (writtenBy env name p).1, (writtenBy env name p).2) := by
  unfold Task.step writtenBy
  dsimp only
  rw [if_pos hf]
  cases writeValues p.log with
  | error e => rfl
  | ok t => cases t <;> rfl

/-- The steps of a thread from `begin` on, against `run` on the same process. -/
theorem begin_alone (grid : List α) (env : Env α) (j f : String) (fuel : Nat) (p : Proc α) :
    (∀ r p', runOn grid fuel env j f p = some (r, p') →
      ∃ k ≤ fuel + 2, solo grid env (.begin j f) p k = (.done r, p')) ∧
    (runOn grid fuel env j f p = none → ∀ r, (solo grid env (.begin j f) p (fuel + 1)).1 ≠ .done r) := by
  have hb := begin_log grid env j f p
  unfold runOn
  cases hlk : lookup p.json (env.canon j) with
  | none =>
    refine ⟨fun r p' h => ?_, fun h => by cases h⟩
    simp only [Option.some.injEq, Prod.mk.injEq] at h
    obtain ⟨rfl, rfl⟩ := h
    refine ⟨1, by omega, ?_⟩
    show (Task.begin j f : Task α).step grid env p = _
    unfold Task.step
    dsimp only
    rw [hlk]
  | some data =>
    dsimp only
    cases hpr : prepare env data p.log with
    | error e =>
      refine ⟨fun r p' h => ?_, fun h => by cases h⟩
      simp only [Option.some.injEq, Prod.mk.injEq] at h
      obtain ⟨rfl, rfl⟩ := h
      refine ⟨1, by omega, ?_⟩
      show (Task.begin j f : Task α).step grid env p = _
      unfold Task.step
      dsimp only
      rw [hlk]
      dsimp only
      rw [hpr]
    | ok pr =>
      dsimp only
      have hlog := initEffusion_log pr.integrator.models.lava grid pr.world
      rw [prepare_log hpr] at hlog
      unfold simulateOn
      cases hi : initEffusionRateOn grid pr.integrator.models.lava pr.world with
      | mk r1 w1 =>
        rw [hi] at hlog
        dsimp only at hlog
        have hpp : ({ p with log := w1.log } : Proc α) = p := by rw [hlog]
        cases r1 with
        | error e =>
          dsimp only
          refine ⟨fun r p' h => ?_, fun h => by cases h⟩
          simp only [Option.some.injEq, Prod.mk.injEq] at h
          obtain ⟨rfl, rfl⟩ := h
          refine ⟨1, by omega, ?_⟩
          show (Task.begin j f : Task α).step grid env p = _
          unfold Task.step
          dsimp only
          rw [hlk]
          dsimp only
          rw [hpr]
          dsimp only
          rw [hi]
        | ok u =>
          dsimp only
          have hs : (Task.begin j f : Task α).step grid env p =
              (.loop (resultFileName f (pr.cfg.lavaName.show env) (pr.cfg.rate.show env)) pr.integrator w1, p) := by
            unfold Task.step
            dsimp only
            rw [hlk]
            dsimp only
            rw [hpr]
            dsimp only
            rw [hi]
            dsimp only
            rw [hpp]
          obtain ⟨l1, l2, l3⟩ := loop_alone grid env (resultFileName f (pr.cfg.lavaName.show env) (pr.cfg.rate.show env)) pr.integrator fuel w1 p hlog.symm
          cases hr : runLoop pr.integrator fuel w1 with
          | none =>
            dsimp only
            refine ⟨fun r p' h => (by cases h), fun _ r h => ?_⟩
            obtain ⟨w', h1, h2⟩ := l3 hr
            rw [solo_first, hs] at h
            dsimp only at h
            rw [h2] at h
            cases h
          | some o =>
            obtain ⟨ro, w'⟩ := o
            cases ro with
            | error e =>
              dsimp only
              refine ⟨fun r p' h => ?_, fun h => by cases h⟩
              simp only [Option.some.injEq, Prod.mk.injEq] at h
              obtain ⟨rfl, rfl⟩ := h
              obtain ⟨k, hk, h1⟩ := l2 e w' hr
              exact ⟨k + 1, by omega, by rw [solo_first, hs]; exact h1⟩
            | ok v =>
              dsimp only
              obtain ⟨hf, k, hk, h1⟩ := l1 w' hr
              have hk2 : solo grid env (.begin j f) p (k + 1 + 1) =
                  (.done (writtenBy env (resultFileName f (pr.cfg.lavaName.show env) (pr.cfg.rate.show env)) { p with log := w'.log }).1,
                    (writtenBy env (resultFileName f (pr.cfg.lavaName.show env) (pr.cfg.rate.show env)) { p with log := w'.log }).2) := by
                rw [solo_first, hs]
                unfold solo
                rw [h1]
                exact save_step grid env _ _ _ hf _
              unfold writtenBy at hk2
              dsimp only at hk2
              refine ⟨fun r p' h => ⟨k + 1 + 1, by omega, ?_⟩, fun h => ?_⟩
              · rw [hk2]
                cases hw : writeValues w'.log with
                | error e =>
                  rw [hw] at h
                  simp only [Option.some.injEq, Prod.mk.injEq] at h
                  rw [← h.1, ← h.2]
                | ok t =>
                  rw [hw] at h
                  cases t with
                  | none =>
                    simp only [Option.some.injEq, Prod.mk.injEq] at h
                    rw [← h.1, ← h.2]
                  | some t =>
                    simp only [Option.some.injEq, Prod.mk.injEq] at h
                    rw [← h.1, ← h.2]
              · cases hw : writeValues w'.log with
                | error e => rw [hw] at h; cases h
                | ok t =>
                  rw [hw] at h
                  cases t <;> cases h

/-- **C120**. A thread that is alone in its process does what `RunFlowgo().run(json_file, folder)` does: it ends with the outcome `r` and
    leaves the process as `p'` exactly if the call does. -/
theorem C120_alone (grid : List α) (env : Env α) (j f : String) (p p' : Proc α) (r : Except Err Unit) :
    (∃ k, solo grid env (.create j f) p k = (.done r, p')) ↔ ∃ fuel, runOn grid fuel env j f (newRunner p) = some (r, p') := by
  constructor
  · rintro ⟨k, h⟩
    cases k with
    | zero =>
      unfold solo at h
      cases h
    | succ k =>
      rw [solo_first] at h
      change solo grid env (.begin j f) (newRunner p) k = _ at h
      obtain ⟨h1, h2⟩ := begin_alone grid env j f k (newRunner p)
      cases hr : runOn grid k env j f (newRunner p) with
      | none =>
        refine absurd ?_ (h2 hr r)
        rw [solo_done_from h 1]
      | some o =>
        obtain ⟨r', q⟩ := o
        obtain ⟨k', _, h3⟩ := h1 r' q hr
        have h4 := solo_done_from h k'
        rw [Nat.add_comm, solo_done_from h3 k] at h4
        simp only [Prod.mk.injEq, Task.done.injEq] at h4
        exact ⟨k, by rw [hr, h4.1, h4.2]⟩
  · rintro ⟨fuel, h⟩
    obtain ⟨k, _, h3⟩ := (begin_alone grid env j f fuel (newRunner p)).1 r p' h
    exact ⟨k + 1, by rw [solo_first]; exact h3⟩

/-- **C120**. For every schedule, any number of threads and whatever they do: a thread that has taken `k` steps is as far as it would be
    alone after `k` steps, its own objects hold the same numbers, and it has raised what it would have raised; only the writing of
    its result file may end differently. -/
theorem C120_private (grid : List α) (env : Env α) (s : Threads α) (sched : List Nat) (i : Nat) (t : Task α) (h : s.tasks[i]? = some t) :
    ∃ c, (s.exec grid env sched).tasks[i]? = some c ∧
      SameOwn (∃ m < sched.count i, AtEnd (solo grid env t s.proc m).1) (solo grid env t s.proc (sched.count i)).1 c :=
  own_state grid env s sched i t h

/-- **C120**. In particular a run that raises alone before it comes to write its file raises the same exception in company, after the
    same number of own steps. -/
theorem C120_raises (grid : List α) (env : Env α) (s : Threads α) (sched : List Nat) (i : Nat) (t : Task α) (h : s.tasks[i]? = some t)
    (e : Err) (hr : (solo grid env t s.proc (sched.count i)).1 = .done (.error e))
    (hb : ∀ m < sched.count i, ¬ AtEnd (solo grid env t s.proc m).1) :
    (s.exec grid env sched).tasks[i]? = some (.done (.error e)) := by
  obtain ⟨c, h1, h2⟩ := own_state grid env s sched i t h
  rw [hr] at h2
  cases c with
  | done r =>
    rcases h2 with rfl | ⟨m, hm, h3⟩
    · exact h1
    · exact absurd h3 (hb m hm)
  | create j f => exact h2.elim
  | begin j f => exact h2.elim
  | loop n g w => exact h2.elim

/-- **C120**. If nobody else takes a step from the construction of the runner to the end of its run, the outcome, the log and
    the files are those of the run alone, whatever the other threads did before. -/
theorem C120_one_after_the_other (grid : List α) (fuel : Nat) (env : Env α) (s : Threads α) (i : Nat) (j f : String)
    (h : s.tasks[i]? = some (.create j f)) (r : Except Err Unit) (p' : Proc α)
    (hr : runOn grid fuel env j f (newRunner s.proc) = some (r, p')) :
    ∃ k, s.exec grid env (List.replicate k i) = ⟨s.tasks.set i (.done r), p'⟩ := by
  obtain ⟨k, hk⟩ := (C120_alone grid env j f s.proc p' r).mpr ⟨fuel, hr⟩
  exact ⟨k, by rw [threads_exec_replicate grid env s i _ h k, hk]⟩

/-- **C120**. The constructor of any thread throws away the rows of every other one. If a run that has left its loop comes to write
    its file just afterwards, it returns normally and there is no file: nothing is written and nothing is raised. -/
theorem C120_no_file (grid : List α) (env : Env α) (s : Threads α) (i k : Nat) (hik : i ≠ k) (name : String) (g : Integrator α) (w : World α)
    (hi : s.tasks[i]? = some (.loop name g w)) (hf : w.finished = true) (j f : String) (hk : s.tasks[k]? = some (.create j f)) :
    (s.exec grid env [k, i]).tasks[i]? = some (.done (.ok ())) ∧ (s.exec grid env [k, i]).proc.results = s.proc.results := by
  have h1 : (s.step grid env k).tasks[i]? = some (.loop name g w) := by rw [threads_step_other hik.symm]; exact hi
  have h2 : (s.step grid env k).proc = newRunner s.proc := by rw [threads_step_some hk]; rfl
  have e : s.exec grid env [k, i] = (s.step grid env k).step grid env i := rfl
  rw [e]
  have h3 : writtenBy env name (newRunner s.proc) = (.ok (), newRunner s.proc) := rfl
  constructor
  · rw [threads_step_same h1, h2, save_step grid env name g w hf, h3]
  · rw [threads_step_some h1, h2, save_step grid env name g w hf, h3]
    rfl

/-- **C120**. So for every pair of runs, the first of which ends normally alone: there is a schedule in which it also ends normally, and
    leaves no result file at all. -/
theorem C120_can_lose_the_file (grid : List α) (fuel : Nat) (env : Env α) (p p1 : Proc α) (j f j' f' : String)
    (hr : runOn grid fuel env j f (newRunner p) = some (.ok (), p1)) :
    ∃ sched, ((⟨[.create j f, .create j' f'], p⟩ : Threads α).exec grid env sched).tasks[0]? = some (.done (.ok ())) ∧
      ((⟨[.create j f, .create j' f'], p⟩ : Threads α).exec grid env sched).proc.results = p.results := by
  obtain ⟨K, hK⟩ := (C120_alone grid env j f p p1 (.ok ())).mpr ⟨fuel, hr⟩
  -- the last step before the end
  have hex : ∃ k name g w, w.finished = true ∧ (solo grid env (.create j f) p k).1 = .loop name g w ∧
      (solo grid env (.create j f) p k).2.results = p.results := by
    have hall : ∀ k, (∃ m < k, ∃ name g w, w.finished = true ∧ (solo grid env (.create j f) p m).1 = .loop name g w ∧
        (solo grid env (.create j f) p m).2.results = p.results) ∨
        ((solo grid env (.create j f) p k).1 ≠ .done (.ok ()) ∧ (solo grid env (.create j f) p k).2.results = p.results) := by
      intro k
      induction k with
      | zero => exact Or.inr ⟨(by unfold solo; intro h; cases h), rfl⟩
      | succ k ih =>
        rcases ih with ⟨m, hm, h⟩ | ⟨h1, h2⟩
        · exact Or.inl ⟨m, by omega, h⟩
        · cases ht : (solo grid env (.create j f) p k).1 with
          | create a b =>
            right
            unfold solo
            rw [ht]
            exact ⟨(by intro h; cases h), h2⟩
          | begin a b =>
            right
            unfold solo
            rw [ht]
            refine ⟨?_, (by rw [begin_log]; exact h2)⟩
            unfold Task.step
            dsimp only
            split
            · intro h; cases h
            · split
              · intro h; cases h
              · split <;> (intro h; cases h)
          | loop n g w =>
            by_cases hf : w.finished = true
            · exact Or.inl ⟨k, by omega, n, g, w, hf, ht, h2⟩
            · right
              unfold solo
              rw [ht]
              unfold Task.step
              dsimp only
              rw [if_neg hf]
              split
              · exact ⟨(by intro h; cases h), h2⟩
              · exact ⟨(by intro h; cases h), h2⟩
          | done r =>
            right
            unfold solo
            rw [ht] at h1 ⊢
            exact ⟨h1, h2⟩
    rcases hall K with ⟨m, _, h⟩ | ⟨h, _⟩
    · obtain ⟨name, g, w, h1, h2, h3⟩ := h
      exact ⟨m, name, g, w, h1, h2, h3⟩
    · rw [hK] at h
      exact absurd rfl h
  obtain ⟨k, name, g, w, hf, ht, hres⟩ := hex
  refine ⟨List.replicate k 0 ++ [1, 0], ?_⟩
  rw [threads_exec_append, threads_exec_replicate grid env _ 0 (.create j f) rfl k]
  have := C120_no_file grid env ⟨[Task.create j f, .create j' f'].set 0 (solo grid env (.create j f) p k).1, (solo grid env (.create j f) p k).2⟩ 0 1
    (by decide) name g w (by simp [ht]) hf j' f' rfl
  exact ⟨this.1, this.2.trans hres⟩

end PyFlowGo
