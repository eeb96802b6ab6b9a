import Verif.Proofs.LogShape
import Verif.Model.Run
/-
  C03, C04: the log and the result file of a run.
-/
set_option linter.unusedSectionVars false
namespace PyFlowGo
open Spec
variable {α : Type} [Add α] [Sub α] [Mul α] [Neg α] [OfScientific α] [PyNum α]

/-! ### What a run can do to the log -/

/-- A log after more `add_variable` calls. -/
def replay {ν : Type} [BEq ν] (log : Log ν) (ops : List (LogOp ν)) : Log ν :=
  ops.foldl (fun log o => log.addVariable o.name o.position o.value) log

theorem replay_append {ν : Type} [BEq ν] (log : Log ν) (a b : List (LogOp ν)) :
    replay log (a ++ b) = replay (replay log a) b := by simp [replay]

theorem replay_addAll {ν : Type} [BEq ν] (log : Log ν) (p : ν) (es : List (String × ν)) :
    log.addAll p es = replay log (es.map fun e => ⟨e.1, p, e.2⟩) := by
  simp [replay, Log.addAll, List.foldl_map]

/-- `m` changes the log only by `add_variable` calls with ordinary column names, whether it succeeds or not. -/
def Writes {β : Type} (m : PyM (World α) β) : Prop :=
  ∀ w, ∃ ops, (∀ o ∈ ops, o.name ≠ "position") ∧ (m w).2.log = replay w.log ops

theorem Writes.of_log {β : Type} {m : PyM (World α) β} (h : ∀ w, (m w).2.log = w.log) : Writes m :=
  fun w => ⟨[], by simp, h w⟩

theorem Writes.bind {β γ : Type} {m : PyM (World α) β} {f : β → PyM (World α) γ} (hm : Writes m)
    (hf : ∀ b, Writes (f b)) : Writes (m >>= f) := by
  intro w
  obtain ⟨o1, h1, h2⟩ := hm w
  rw [PyM.bind_apply]
  cases h : m w with
  | mk r w1 =>
    rw [h] at h2
    cases r with
    | error e => exact ⟨o1, h1, h2⟩
    | ok b =>
      obtain ⟨o2, h3, h4⟩ := hf b w1
      refine ⟨o1 ++ o2, ?_, by rw [replay_append, ← h2]; exact h4⟩
      intro o ho
      rcases List.mem_append.mp ho with h | h
      · exact h1 o h
      · exact h3 o h

theorem Emits.writes {β : Type} {m : PyM (World α) β} {names : List String} (h : Emits m names)
    (hn : ∀ n ∈ names, n ≠ "position") : Writes m := by
  intro w
  obtain ⟨x, es, h1, h2, _⟩ := h w (m w).1 (m w).2 rfl
  refine ⟨es.map fun e => ⟨e.1, .num w.st.pos, e.2⟩, ?_, ?_⟩
  · intro o ho
    obtain ⟨e, he, rfl⟩ := List.mem_map.mp ho
    exact hn _ (h2.subset (List.mem_map.mpr ⟨e, he, rfl⟩))
  · rw [h1]; exact replay_addAll _ _ _

theorem writes_modify (f : World α → World α) (h : ∀ w, (f w).log = w.log) : Writes (PyM.modify f) :=
  Writes.of_log h

theorem writes_lift {β : Type} (x : Except Err β) : Writes (PyM.lift x : PyM (World α) β) := Writes.of_log fun _ => rfl
theorem writes_get : Writes (PyM.get : PyM (World α) (World α)) := Writes.of_log fun _ => rfl
theorem writes_pure {β : Type} (b : β) : Writes (pure b : PyM (World α) β) := Writes.of_log fun _ => rfl
theorem writes_finished : Writes (setFinished : PyM (World α) Unit) := Writes.of_log fun _ => rfl

theorem writes_stepCompute (g : Integrator α) (v : α) : Writes (stepCompute g v) := by
  unfold stepCompute
  refine Writes.bind (writes_modify _ fun w => by split <;> rfl) fun _ => ?_
  refine Writes.bind writes_get fun w => ?_
  refine Writes.bind (writes_lift _) fun width => ?_
  refine Writes.bind (writes_lift _) fun slope => ?_
  refine Writes.bind ((Emits.heatBudget _ _ _).writes ?_) fun heat => ?_
  · intro n hn
    rcases List.mem_append.mp hn with h | h
    · exact flux_names_ne _ n h
    · rw [List.mem_singleton] at h; rw [h]; decide
  refine Writes.bind writes_get fun w => ?_
  refine Writes.bind (writes_lift _) fun _ => ?_
  exact Writes.bind (writes_lift _) fun _ => writes_pure _

theorem writes_stepUpdate (g : Integrator α) (d : StepData α) : Writes (stepUpdate g d) := by
  unfold stepUpdate
  refine Writes.bind (writes_modify _ fun w => rfl) fun _ => ?_
  refine Writes.bind (writes_lift _) fun _ => ?_
  refine Writes.bind (writes_modify _ fun w => rfl) fun _ => ?_
  refine Writes.bind (writes_lift _) fun _ => ?_
  exact writes_modify _ fun w => rfl

theorem writes_stepStop (g : Integrator α) (d : StepData α) : Writes (stepStop g d) := by
  unfold stepStop
  refine Writes.bind writes_get fun w => ?_
  split
  · exact writes_finished
  · refine Writes.bind (writes_lift _) fun nc => ?_
    split
    · exact writes_finished
    · refine Writes.bind (writes_lift _) fun yc => ?_
      split
      · exact writes_finished
      · split
        · exact writes_finished
        · exact writes_pure _

theorem writes_singleStep (g : Integrator α) : Writes (singleStep g) := by
  unfold singleStep
  refine Writes.bind ((Emits.meanVelocityM _).writes (by simp)) fun v => ?_
  split
  · exact writes_finished
  · refine Writes.bind (writes_stepCompute g v) fun d => ?_
    refine Writes.bind writes_get fun w => ?_
    split
    · exact writes_finished
    · refine Writes.bind ((Emits.stepLog g d).writes (by decide)) fun _ => ?_
      exact Writes.bind (writes_stepUpdate g d) fun _ => writes_stepStop g d

theorem runLoop_writes (g : Integrator α) (n : Nat) (w : World α) (r : Except Err Unit) (w' : World α)
    (h : runLoop g n w = some (r, w')) : ∃ ops, (∀ o ∈ ops, o.name ≠ "position") ∧ w'.log = replay w.log ops := by
  induction n generalizing w with
  | zero =>
    unfold runLoop at h
    split at h
    · simp only [Option.some.injEq, Prod.mk.injEq] at h
      exact ⟨[], by simp, by rw [← h.2]; rfl⟩
    · cases h
  | succ n ih =>
    unfold runLoop at h
    split at h
    · simp only [Option.some.injEq, Prod.mk.injEq] at h
      exact ⟨[], by simp, by rw [← h.2]; rfl⟩
    · obtain ⟨o1, h1, h2⟩ := writes_singleStep g w
      split at h
      · rename_i w1 hs
        rw [hs] at h2
        obtain ⟨o2, h3, h4⟩ := ih w1 h
        refine ⟨o1 ++ o2, ?_, by rw [replay_append, ← h2]; exact h4⟩
        intro o ho
        rcases List.mem_append.mp ho with h | h
        · exact h1 o h
        · exact h3 o h
      · rename_i e w1 hs
        rw [hs] at h2
        simp only [Option.some.injEq, Prod.mk.injEq] at h
        exact ⟨o1, h1, by rw [← h.2]; exact h2⟩

theorem simulate_writes (grid : List α) (fuel : Nat) (g : Integrator α) (w : World α) (r : Except Err Unit)
    (w' : World α) (h : simulateOn grid fuel g w = some (r, w')) :
    ∃ ops, (∀ o ∈ ops, o.name ≠ "position") ∧ w'.log = replay w.log ops := by
  unfold simulateOn at h
  have hl := initEffusion_log g.models.lava grid w
  split at h
  · rename_i w1 hs
    rw [hs] at hl
    rw [← hl]
    exact runLoop_writes g fuel w1 r w' h
  · rename_i e w1 hs
    rw [hs] at hl
    simp only [Option.some.injEq, Prod.mk.injEq] at h
    exact ⟨[], by simp, by rw [← h.2]; exact hl⟩

theorem prepare_log {env : Env α} {data : Json α} {log : Log (Cell α)} {pr : Prepared α}
    (h : prepare env data log = .ok pr) : pr.world.log = log := by
  unfold prepare at h
  simp only [bind_ok_iff, pure_ok_iff] at h
  obtain ⟨_, _, _, _, _, _, _, _, _, _, _, _, _, _, rfl⟩ := h
  rfl

/-- **C01/C03**. Whatever a call of `run` does (it may raise), the log afterwards is the log before with some
    `add_variable` calls added: a history in the sense of C01. -/
theorem C03_run_extends_the_log (grid : List α) (fuel : Nat) (env : Env α) (jsonFile folder : String) (p p' : Proc α)
    (r : Except Err Unit) (h : runOn grid fuel env jsonFile folder p = some (r, p')) :
    ∃ ops, (∀ o ∈ ops, o.name ≠ "position") ∧ p'.log = replay p.log ops := by
  unfold runOn at h
  split at h
  · simp only [Option.some.injEq, Prod.mk.injEq] at h
    exact ⟨[], by simp, by rw [← h.2]; rfl⟩
  · split at h
    · simp only [Option.some.injEq, Prod.mk.injEq] at h
      exact ⟨[], by simp, by rw [← h.2]; rfl⟩
    · rename_i pr hp
      have hlog := prepare_log hp
      split at h
      · cases h
      · rename_i e w hs
        simp only [Option.some.injEq, Prod.mk.injEq] at h
        obtain ⟨ops, h1, h2⟩ := simulate_writes _ _ _ _ _ _ hs
        exact ⟨ops, h1, by rw [← h.2, ← hlog]; exact h2⟩
      · rename_i w hs
        obtain ⟨ops, h1, h2⟩ := simulate_writes _ _ _ _ _ _ hs
        refine ⟨ops, h1, ?_⟩
        rw [← hlog, ← h2]
        split at h <;> simp only [Option.some.injEq, Prod.mk.injEq] at h <;> rw [← h.2]

/-- **C01/C03**. In particular the log of a fresh runner after a run is the log of a history of calls on an
    empty log, so C01 and C02 describe it. -/
theorem C03_fresh_log_is_a_history (grid : List α) (fuel : Nat) (env : Env α) (jsonFile folder : String)
    (p p' : Proc α) (r : Except Err Unit) (h : runOn grid fuel env jsonFile folder (newRunner p) = some (r, p')) :
    ∃ ops, (∀ o ∈ ops, o.name ≠ "position") ∧ p'.log = history ops :=
  C03_run_extends_the_log grid fuel env jsonFile folder _ p' r h

/-! ### C03 -/

/-- What one call of `run` on a fresh runner produces, as a function of the JSON files alone: the outcome, the
    log, and the files written (newest first); `none` while it is still running. -/
def freshOutcome (grid : List α) (fuel : Nat) (env : Env α) (jsonFile folder : String) (json : List (String × Json α)) :
    Option (Except Err Unit × Log (Cell α) × List (String × CsvTable (Cell α))) :=
  (runOn grid fuel env jsonFile folder { json := json, results := [], log := [] }).map
    fun o => (o.1, o.2.log, o.2.results)

/-- **C03**. `RunFlowgo()` followed by `run`: for every earlier history of the process (its log and its result
    files), the outcome, the log and the files written are the same; older files and all JSON files stay. -/
theorem C03_fresh_runner (grid : List α) (fuel : Nat) (env : Env α) (jsonFile folder : String) (p : Proc α) :
    runOn grid fuel env jsonFile folder (newRunner p) =
      (freshOutcome grid fuel env jsonFile folder p.json).map fun o =>
        (o.1, { json := p.json, results := o.2.2 ++ p.results, log := o.2.1 }) := by
  unfold freshOutcome runOn newRunner
  dsimp only [Log.clear]
  cases lookup p.json (env.canon jsonFile) with
  | none => rfl
  | some data =>
    dsimp only
    cases prepare env data [] with
    | error e => rfl
    | ok pr =>
      dsimp only
      cases simulateOn grid fuel pr.integrator pr.world with
      | none => rfl
      | some o =>
        obtain ⟨r, w⟩ := o
        cases r with
        | error e => rfl
        | ok u =>
          dsimp only
          cases writeValues w.log with
          | error e => rfl
          | ok t => cases t <;> rfl

/-- **C03**. Two processes with different histories but the same JSON files cannot be told apart by a fresh
    run. -/
theorem C03_history_invisible (grid : List α) (fuel : Nat) (env : Env α) (jsonFile folder : String) (p q : Proc α)
    (h : p.json = q.json) :
    (runOn grid fuel env jsonFile folder (newRunner p)).map (fun o => (o.1, o.2.log, o.2.json)) =
      (runOn grid fuel env jsonFile folder (newRunner q)).map (fun o => (o.1, o.2.log, o.2.json)) := by
  rw [C03_fresh_runner, C03_fresh_runner, h]
  cases freshOutcome grid fuel env jsonFile folder q.json <;> rfl

/-- Positions of rows already in the log stay where they are. -/
theorem positions_prefix {ν : Type} [BEq ν] (ops : List (LogOp ν)) (hn : ∀ o ∈ ops, o.name ≠ "position")
    (log : Log ν) : log.getValues "position" <+: (replay log ops).getValues "position" := by
  induction ops generalizing log with
  | nil => exact List.prefix_rfl
  | cons o rest ih =>
    have h1 : replay log (o :: rest) = replay (log.addVariable o.name o.position o.value) rest := rfl
    rw [h1]
    refine List.IsPrefix.trans ?_ (ih (fun x hx => hn x (by simp [hx])) _)
    rcases addVariable_shape log o.name o.position o.value with ⟨pre, r, post, h2, _, _, h5⟩ | ⟨_, h3⟩
    · rw [h5, h2]
      have : (r.set o.name o.value).get? "position" = r.get? "position" := by
        rw [Row.get?_set, if_neg fun e => hn o (by simp) e.symm]
      simp [Log.getValues, this]
    · rw [h3]
      simp [Log.getValues]

/-- **C03** (the other half). Without `RunFlowgo()` in between, nothing is forgotten: every row that was in the
    log before `run` is still there afterwards, at the same place, and goes into the next result file. -/
theorem C03_reuse_keeps_old_rows (grid : List α) (fuel : Nat) (env : Env α) (jsonFile folder : String) (p p' : Proc α)
    (r : Except Err Unit) (h : runOn grid fuel env jsonFile folder p = some (r, p')) :
    p.log.getValues "position" <+: p'.log.getValues "position" := by
  obtain ⟨ops, hn, hl⟩ := C03_run_extends_the_log grid fuel env jsonFile folder p p' r h
  rw [hl]
  exact positions_prefix ops hn p.log

/-! ### C04 -/

theorem simulate_columns (hrefl : ∀ c : Cell α, (c == c) = true) {grid : List α} {fuel : Nat} {g : Integrator α}
    {w w' : World α} (hw : w.log = []) (h : simulateOn grid fuel g w = some (.ok (), w')) :
    FullRows (runColumns g) w'.log ∨
    ∃ init r, w'.log = init ++ [r] ∧ FullRows (runColumns g) init ∧ ∀ k, k ∈ r.keys ↔ k ∈ partColumns g := by
  unfold simulateOn at h
  have hl := initEffusion_log g.models.lava grid w
  split at h
  · rename_i w1 hs
    rw [hs] at hl
    refine runLoop_columns hrefl ?_ h
    rw [show w1.log = [] from hl.trans hw]
    intro r hr; cases hr
  · simp at h

/-- **C04**. The rows of a run that ended normally: every row but the last has exactly the columns of the first
    one; the last has no others and lacks only columns logged after the heat budget. -/
theorem C04_columns (hrefl : ∀ c : Cell α, (c == c) = true) (grid : List α) (fuel : Nat) (g : Integrator α)
    (w w' : World α) (hw : w.log = []) (h : simulateOn grid fuel g w = some (.ok (), w'))
    (first last : Row (Cell α)) (hf : w'.log.head? = some first) (hl : w'.log.getLast? = some last) :
    (∀ r ∈ w'.log.dropLast, ∀ k, k ∈ r.keys ↔ k ∈ first.keys) ∧ (∀ k ∈ last.keys, k ∈ first.keys) ∧
    (∀ k ∈ first.keys, k ∉ last.keys → k ∈ stepColumns) := by
  rcases simulate_columns hrefl hw h with hfull | ⟨init, r, he, hfull, hr⟩
  · have h1 := hfull first (List.mem_of_mem_head? hf)
    have h2 := hfull last (List.mem_of_getLast? hl)
    refine ⟨fun r hr k => ?_, fun k hk => (h1 k).mpr ((h2 k).mp hk), fun k hk hk' => absurd ((h2 k).mpr ((h1 k).mp hk)) hk'⟩
    rw [h1 k, hfull r (List.dropLast_subset _ hr) k]
  · rw [he, List.getLast?_append, List.getLast?_singleton] at hl
    have hl : r = last := by simpa using hl
    subst hl
    rw [he, List.dropLast_concat]
    cases init with
    | nil =>
      rw [he] at hf
      have : r = first := by simpa using hf
      subst this
      exact ⟨by simp, fun k hk => hk, fun k hk hk' => absurd hk hk'⟩
    | cons a rest =>
      rw [he] at hf
      have : a = first := by simpa using hf
      subst this
      have h1 := hfull a (by simp)
      refine ⟨fun x hx k => by rw [h1 k, hfull x hx k], fun k hk => ?_, fun k hk hk' => ?_⟩
      · rw [h1 k]
        have := (hr k).mp hk
        simp only [partColumns, runColumns, List.mem_cons, List.mem_append] at this ⊢
        tauto
      · have := (h1 k).mp hk
        rw [hr k] at hk'
        simp only [partColumns, runColumns, List.mem_cons, List.mem_append] at this hk'
        tauto

/-- **C04**. So the result file can always be written after a run on a fresh runner; there is one exactly when
    the log is not empty. -/
theorem C04_write_never_fails (hrefl : ∀ c : Cell α, (c == c) = true) (grid : List α) (fuel : Nat)
    (g : Integrator α) (w w' : World α) (hw : w.log = []) (h : simulateOn grid fuel g w = some (.ok (), w')) :
    ∃ t, writeValues w'.log = .ok t ∧ (t = none ↔ w'.log = []) := by
  refine writeValues_ok _ fun first hf r hr k hk => ?_
  have hne : w'.log ≠ [] := List.ne_nil_of_mem hr
  obtain ⟨h1, h2, _⟩ := C04_columns hrefl grid fuel g w w' hw h first (w'.log.getLast hne) hf
    (List.getLast?_eq_some_getLast hne)
  rcases List.mem_append.mp ((List.dropLast_concat_getLast hne).symm ▸ hr) with hr | hr
  · exact (h1 r hr k).mp hk
  · rw [List.mem_singleton] at hr
    exact h2 k (hr ▸ hk)

/-- **C04**. A run on a fresh runner fails only for reasons that arise before writing: if the simulation ends
    normally the call ends normally, the result file has one line per logged row, and every cell is the logged
    value. -/
theorem C04_run_writes (hrefl : ∀ c : Cell α, (c == c) = true) (grid : List α) (fuel : Nat) (env : Env α)
    (jsonFile folder : String) (p : Proc α) (data : Json α) (pr : Prepared α) (w : World α)
    (hdata : lookup p.json (env.canon jsonFile) = some data) (hprep : prepare env data [] = .ok pr)
    (hsim : simulateOn grid fuel pr.integrator pr.world = some (.ok (), w)) :
    ∃ p', runOn grid fuel env jsonFile folder (newRunner p) = some (.ok (), p') ∧ p'.log = w.log ∧ p'.json = p.json ∧
      (w.log = [] → p'.results = p.results) ∧
      (w.log ≠ [] → ∃ t, p'.results =
          (env.canon (resultFileName folder (pr.cfg.lavaName.show env) (pr.cfg.rate.show env)), t) :: p.results ∧
        t.rows.length = w.log.length ∧ ∀ name ∈ t.header, t.column name = .ok (w.log.getValues name)) := by
  obtain ⟨t, ht, hiff⟩ := C04_write_never_fails hrefl grid fuel _ _ w (prepare_log hprep) hsim
  unfold runOn newRunner
  dsimp only [Log.clear]
  rw [hdata]
  dsimp only
  rw [hprep]
  dsimp only
  rw [hsim]
  dsimp only
  rw [ht]
  cases t with
  | none => exact ⟨_, rfl, rfl, rfl, fun _ => rfl, fun h => absurd (hiff.mp rfl) h⟩
  | some t =>
    refine ⟨_, rfl, rfl, rfl, fun h => absurd (hiff.mpr h) (by simp), fun _ => ⟨t, rfl, ?_⟩⟩
    exact C01_csv_rows_are_the_log w.log t ht

end PyFlowGo
