import Verif.Spec.Threads
import Verif.Proofs.Traced
/-
  Lemmas about threads that share the log.
-/
set_option linter.unusedSectionVars false
namespace PyFlowGo
open Spec
variable {α : Type} [Add α] [Sub α] [Mul α] [Neg α] [OfScientific α] [PyNum α]

/-- The preparation passes the log through. -/
theorem prepare_any (env : Env α) (data : Json α) (L : Log (Cell α)) :
    prepare env data L = (prepare env data []).map fun pr => { pr with world := { pr.world with log := L } } := by
  unfold prepare newWorld
  simp only [bind, Except.bind, pure, Except.pure]
  cases readRunConfig env data with
  | error e => rfl
  | ok cfg =>
    dsimp only
    cases buildTerrain env data with
    | error e => rfl
    | ok t0 =>
      dsimp only
      cases loadSlope env t0 cfg.slopeFile with
      | error e => rfl
      | ok t =>
        dsimp only
        cases factory env data with
        | error e => rfl
        | ok m =>
          dsimp only
          cases getF env data "lava_state" "position" with
          | error e => rfl
          | ok pos =>
            dsimp only
            cases getF env data "lava_state" "time" with
            | error e => rfl
            | ok time =>
              dsimp only
              cases initialState m t pos time <;> rfl

/-- Only a constructor and the steps of a loop change the log; the JSON files never change. -/
theorem step_json (grid : List α) (env : Env α) (t : Task α) (p : Proc α) : (t.step grid env p).2.json = p.json := by
  cases t with
  | create j f => rfl
  | begin j f =>
    unfold Task.step
    dsimp only
    split
    · rfl
    · split
      · rfl
      · split <;> rfl
  | loop n g w =>
    unfold Task.step
    dsimp only
    split
    · split <;> rfl
    · split <;> rfl
  | done r => rfl

theorem begin_log (grid : List α) (env : Env α) (j f : String) (p : Proc α) :
    ((Task.begin j f : Task α).step grid env p).2 = p := by
  unfold Task.step
  dsimp only
  split
  · rfl
  · split
    · rfl
    · rename_i pr hpr
      have h := initEffusion_log pr.integrator.models.lava grid pr.world
      rw [prepare_log hpr] at h
      split
      · rename_i e
        rw [e] at h
        dsimp only at h
        rw [h]
      · rename_i e
        rw [e] at h
        dsimp only at h
        rw [h]

theorem threads_exec_snoc (grid : List α) (env : Env α) (s : Threads α) (sched : List Nat) (i : Nat) :
    s.exec grid env (sched ++ [i]) = (s.exec grid env sched).step grid env i := by
  simp [Threads.exec]

theorem threads_exec_append (grid : List α) (env : Env α) (s : Threads α) (a b : List Nat) :
    s.exec grid env (a ++ b) = (s.exec grid env a).exec grid env b := by
  simp [Threads.exec]

theorem threads_exec_cons (grid : List α) (env : Env α) (s : Threads α) (i : Nat) (b : List Nat) :
    s.exec grid env (i :: b) = (s.step grid env i).exec grid env b := rfl

theorem threads_step_some {grid : List α} {env : Env α} {s : Threads α} {i : Nat} {t : Task α} (h : s.tasks[i]? = some t) :
    s.step grid env i = ⟨s.tasks.set i (t.step grid env s.proc).1, (t.step grid env s.proc).2⟩ := by
  unfold Threads.step
  rw [h]

theorem threads_step_none {grid : List α} {env : Env α} {s : Threads α} {i : Nat} (h : s.tasks[i]? = none) :
    s.step grid env i = s := by
  unfold Threads.step
  rw [h]

theorem threads_step_same {grid : List α} {env : Env α} {s : Threads α} {i : Nat} {t : Task α} (h : s.tasks[i]? = some t) :
    (s.step grid env i).tasks[i]? = some (t.step grid env s.proc).1 := by
  rw [threads_step_some h]
  obtain ⟨hi, _⟩ := List.getElem?_eq_some_iff.mp h
  simp [hi]

theorem threads_step_other {grid : List α} {env : Env α} {s : Threads α} {i k : Nat} (h : k ≠ i) :
    (s.step grid env k).tasks[i]? = s.tasks[i]? := by
  unfold Threads.step
  split
  · rfl
  · simp [List.getElem?_set_ne h]

/-- A thread whose steps follow one another, with nobody in between, does what it does alone. -/
theorem threads_exec_replicate (grid : List α) (env : Env α) (s : Threads α) (i : Nat) (t : Task α) (h : s.tasks[i]? = some t) (k : Nat) :
    s.exec grid env (List.replicate k i) =
      ⟨s.tasks.set i (solo grid env t s.proc k).1, (solo grid env t s.proc k).2⟩ := by
  obtain ⟨hi, hget⟩ := List.getElem?_eq_some_iff.mp h
  induction k with
  | zero =>
    have : s.tasks.set i t = s.tasks := by rw [← hget]; exact List.set_getElem_self hi
    simp [Threads.exec, solo, this]
  | succ k ih =>
    rw [List.replicate_succ', threads_exec_snoc, ih, threads_step_some (t := (solo grid env t s.proc k).1) (by simp [hi])]
    simp [solo]

/-! ### Own state -/

theorem save_done (grid : List α) (env : Env α) (n : String) (g : Integrator α) (w : World α) (hf : w.finished = true) (p : Proc α) :
    ∃ r, ((Task.loop n g w).step grid env p).1 = .done r := by
  unfold Task.step
  dsimp only
  rw [if_pos hf]
  split <;> exact ⟨_, rfl⟩


theorem sameOwn_refl (t : Task α) : SameOwn False t t := by
  cases t with
  | create j f => exact ⟨rfl, rfl⟩
  | begin j f => exact ⟨rfl, rfl⟩
  | loop n g w => exact ⟨rfl, rfl, rfl⟩
  | done r => exact Or.inl rfl

theorem sameOwn_mono {P Q : Prop} (h : P → Q) {a c : Task α} (hs : SameOwn P a c) : SameOwn Q a c := by
  cases a <;> cases c <;> first
    | exact hs
    | exact hs.imp id h

/-- Two threads with the same own state, each with its own log, still have the same own state after one step each. -/
theorem sameOwn_step (grid : List α) (env : Env α) {P : Prop} {a c : Task α} {p q : Proc α} (hj : q.json = p.json)
    (hs : SameOwn P a c) : SameOwn (P ∨ AtEnd a) (a.step grid env p).1 (c.step grid env q).1 := by
  cases a with
  | create j f =>
    cases c with
    | create j' f' => exact ⟨hs.1, hs.2⟩
    | begin j' f' => exact hs.elim
    | loop n g w => exact hs.elim
    | done r => exact hs.elim
  | begin j f =>
    cases c with
    | begin j' f' =>
      obtain ⟨rfl, rfl⟩ := hs
      unfold Task.step
      dsimp only
      rw [hj]
      cases lookup p.json (env.canon j') with
      | none => exact Or.inl rfl
      | some data =>
        dsimp only
        rw [prepare_any env data q.log, prepare_any env data p.log]
        cases prepare env data [] with
        | error e => exact Or.inl rfl
        | ok pr =>
          simp only [Except.map]
          rw [search_traced grid pr.integrator.models.lava pr.world q.log, search_traced grid pr.integrator.models.lava pr.world p.log]
          cases initEffusionRateOn grid pr.integrator.models.lava pr.world with
          | mk r w1 =>
            cases r with
            | error e => exact Or.inl rfl
            | ok u => exact ⟨rfl, rfl, rfl⟩
    | create j' f' => exact hs.elim
    | loop n g w => exact hs.elim
    | done r => exact hs.elim
  | loop n g w =>
    cases c with
    | loop n' g' w' =>
      obtain ⟨rfl, rfl, e⟩ := hs
      generalize w'.log = L at e
      subst e
      by_cases hf : w.finished = true
      · obtain ⟨r, hr⟩ := save_done grid env n' g' w hf p
        obtain ⟨r', hr'⟩ := save_done grid env n' g' { w with log := L } hf q
        rw [hr, hr']
        exact Or.inr (Or.inr hf)
      · unfold Task.step
        dsimp only
        rw [if_neg hf, if_neg hf]
        obtain ⟨ops, _, ht⟩ := step_traced g' w
        rw [ht p.log, ht q.log]
        cases singleStep g' w with
        | mk r w1 =>
          cases r with
          | error e => exact Or.inl rfl
          | ok u => exact ⟨rfl, rfl, rfl⟩
    | create j' f' => exact hs.elim
    | begin j' f' => exact hs.elim
    | done r => exact hs.elim
  | done r =>
    cases c with
    | done r' => exact hs.imp id Or.inl
    | create j' f' => exact hs.elim
    | begin j' f' => exact hs.elim
    | loop n g w => exact hs.elim

theorem threads_exec_json (grid : List α) (env : Env α) (s : Threads α) (sched : List Nat) : (s.exec grid env sched).proc.json = s.proc.json := by
  induction sched generalizing s with
  | nil => rfl
  | cons i rest ih =>
    rw [threads_exec_cons, ih]
    unfold Threads.step
    split
    · rfl
    · exact step_json _ _ _ _

theorem solo_json (grid : List α) (env : Env α) (t : Task α) (p : Proc α) (k : Nat) : (solo grid env t p k).2.json = p.json := by
  induction k with
  | zero => rfl
  | succ k ih => exact (step_json _ _ _ _).trans ih

/-- For every schedule: a thread's own state depends only on how many steps it has taken itself. -/
theorem own_state (grid : List α) (env : Env α) (s : Threads α) (sched : List Nat) (i : Nat) (t : Task α) (h : s.tasks[i]? = some t) :
    ∃ c, (s.exec grid env sched).tasks[i]? = some c ∧
      SameOwn (∃ m < sched.count i, AtEnd (solo grid env t s.proc m).1) (solo grid env t s.proc (sched.count i)).1 c := by
  induction sched using List.reverseRecOn with
  | nil => exact ⟨t, h, sameOwn_mono (fun h => h.elim) (sameOwn_refl t)⟩
  | append_singleton sched k ih =>
    obtain ⟨c, h1, h2⟩ := ih
    rw [threads_exec_snoc, List.count_append]
    by_cases hk : k = i
    · subst hk
      refine ⟨_, threads_step_same h1, ?_⟩
      rw [show List.count k [k] = 1 by simp]
      refine sameOwn_mono ?_ (sameOwn_step grid env (p := (solo grid env t s.proc (sched.count k)).2) ?_ h2)
      · rintro (⟨m, hm, he⟩ | he)
        · exact ⟨m, by omega, he⟩
        · exact ⟨_, Nat.lt_succ_self _, he⟩
      · rw [threads_exec_json, solo_json]
    · refine ⟨c, by rw [threads_step_other hk]; exact h1, ?_⟩
      rw [show List.count i [k] = 0 by simp [hk], Nat.add_zero]
      exact h2

end PyFlowGo
