import Verif.Spec.Schedule
import Verif.Proofs.Process
/-
  Processes that do not touch each other's files: every schedule.
-/
set_option linter.unusedSectionVars false
namespace PyFlowGo
open Spec
variable {ρ : Type}

theorem exec_snoc (s : Sys ρ) (σ : List Nat) (i : Nat) : s.exec (σ ++ [i]) = (s.exec σ).step i := by
  unfold Sys.exec
  rw [List.foldl_append]
  rfl

theorem exec_append (s : Sys ρ) (σ τ : List Nat) : s.exec (σ ++ τ) = (s.exec σ).exec τ := by
  unfold Sys.exec
  rw [List.foldl_append]

theorem exec_length (s : Sys ρ) (σ : List Nat) : (s.exec σ).procs.length = s.procs.length := by
  induction σ using List.reverseRecOn with
  | nil => rfl
  | append_singleton σ i ih =>
    rw [exec_snoc]
    unfold Sys.step
    split
    · exact ih
    · simpa using ih

/-- The invariant of every schedule. -/
theorem isolation (ps : List (Prog ρ)) (d : Files) (hind : Independent ps d) (σ : List Nat) :
    (∀ (i : Nat) (p : Prog ρ), ps[i]? = some p → ((⟨ps, d⟩ : Sys ρ).exec σ).procs[i]? = some (alone p d (σ.count i)).1 ∧
      ∀ q, ReadsAlone p d q ∨ WritesAlone p d q → lookup ((⟨ps, d⟩ : Sys ρ).exec σ).disk q = lookup (alone p d (σ.count i)).2 q) ∧
    ∀ q, (∀ (i : Nat) (p : Prog ρ), ps[i]? = some p → ¬ WritesAlone p d q) → lookup ((⟨ps, d⟩ : Sys ρ).exec σ).disk q = lookup d q := by
  induction σ using List.reverseRecOn with
  | nil => exact ⟨fun i p hp => ⟨hp, fun q _ => rfl⟩, fun q _ => rfl⟩
  | append_singleton σ j ih =>
    obtain ⟨ih1, ih2⟩ := ih
    rw [exec_snoc]
    have hlen := exec_length (⟨ps, d⟩ : Sys ρ) σ
    generalize (⟨ps, d⟩ : Sys ρ).exec σ = s at *
    cases hj : ps[j]? with
    | none =>
      have hs : s.procs[j]? = none := by
        rw [List.getElem?_eq_none_iff] at hj ⊢
        exact hlen ▸ hj
      have hstep : s.step j = s := by unfold Sys.step; rw [hs]
      rw [hstep]
      refine ⟨fun i p hp => ?_, ih2⟩
      have hij : i ≠ j := by
        rintro rfl
        rw [hj] at hp
        cases hp
      rw [List.count_append, List.count_singleton, if_neg (by simpa using hij.symm), Nat.add_zero]
      exact ih1 i p hp
    | some p0 =>
      obtain ⟨a1, a2⟩ := ih1 j p0 hj
      have hjlt : j < s.procs.length := by
        rw [hlen]
        exact (List.getElem?_eq_some_iff.mp hj).1
      have hal : alone p0 d (σ.count j + 1) = (alone p0 d (σ.count j)).1.step (alone p0 d (σ.count j)).2 := rfl
      have hstep : s.step j = ⟨s.procs.set j ((alone p0 d (σ.count j)).1.step s.disk).1, ((alone p0 d (σ.count j)).1.step s.disk).2⟩ := by
        unfold Sys.step
        rw [a1]
      rw [hstep]
      -- what the step does
      have hR : ∀ q, nextAction (alone p0 d (σ.count j)).1 = .reads q → lookup s.disk q = lookup (alone p0 d (σ.count j)).2 q :=
        fun q h => a2 q (Or.inl ⟨_, h⟩)
      have hproc : ((alone p0 d (σ.count j)).1.step s.disk).1 = (alone p0 d (σ.count j + 1)).1 := by
        rw [hal]
        cases hc : (alone p0 d (σ.count j)).1 with
        | ret r => rfl
        | read q k =>
          have := hR q (by rw [hc]; rfl)
          show k (lookup s.disk q) = k (lookup (alone p0 d (σ.count j)).2 q)
          rw [this]
        | write q t k => rfl
      have hother : ∀ q, ¬ WritesAlone p0 d q → lookup ((alone p0 d (σ.count j)).1.step s.disk).2 q = lookup s.disk q := by
        intro q hq
        cases hc : (alone p0 d (σ.count j)).1 with
        | ret r => rfl
        | read q k => rfl
        | write q' t k =>
          show lookup (writeFile s.disk q' t) q = _
          rw [lookup_writeFile, if_neg]
          rintro rfl
          exact hq ⟨_, by rw [hc]; rfl⟩
      have hown : ∀ q, ReadsAlone p0 d q ∨ WritesAlone p0 d q →
          lookup ((alone p0 d (σ.count j)).1.step s.disk).2 q = lookup (alone p0 d (σ.count j + 1)).2 q := by
        intro q hq
        rw [hal]
        cases hc : (alone p0 d (σ.count j)).1 with
        | ret r => exact a2 q hq
        | read q' k => exact a2 q hq
        | write q' t k =>
          show lookup (writeFile s.disk q' t) q = lookup (writeFile _ q' t) q
          rw [lookup_writeFile, lookup_writeFile, a2 q hq]
      refine ⟨fun i p hp => ?_, fun q hq => ?_⟩
      · by_cases hij : i = j
        · subst hij
          rw [hj] at hp
          obtain rfl := Option.some.inj hp
          rw [List.count_append, List.count_singleton, if_pos (by simp)]
          refine ⟨?_, hown⟩
          dsimp only
          rw [List.getElem?_set_self hjlt, hproc]
        · rw [List.count_append, List.count_singleton, if_neg (by simpa using fun h => hij h.symm), Nat.add_zero]
          obtain ⟨b1, b2⟩ := ih1 i p hp
          refine ⟨?_, fun q hq => ?_⟩
          · dsimp only
            rw [List.getElem?_set_ne (fun h => hij h.symm)]
            exact b1
          · dsimp only
            rw [hother q, b2 q hq]
            intro hw
            obtain ⟨c1, c2⟩ := hind j i p0 p (fun h => hij h.symm) hj hp q hw
            rcases hq with hq | hq
            · exact c1 hq
            · exact c2 hq
      · dsimp only
        rw [hother q (hq j p0 hj), ih2 q hq]

/-- A process on its own ends, and then has done what `run` says. -/
theorem alone_ends (p : Prog ρ) (d : Files) : ∃ N, ∀ n, N ≤ n → alone p d n = (.ret (p.run d).1, (p.run d).2) := by
  have hshift : ∀ (p : Prog ρ) (d : Files) n, alone p d (n + 1) = alone (p.step d).1 (p.step d).2 n := by
    intro p d n
    induction n with
    | zero => rfl
    | succ n ih =>
      show (alone p d (n + 1)).1.step (alone p d (n + 1)).2 = _
      rw [ih]
      rfl
  induction p generalizing d with
  | ret r =>
    refine ⟨0, fun n _ => ?_⟩
    induction n with
    | zero => rfl
    | succ n ih =>
      show (alone (.ret r) d n).1.step (alone (.ret r) d n).2 = _
      rw [ih (by omega)]
      rfl
  | read q k ih =>
    obtain ⟨N, hN⟩ := ih (lookup d q) d
    refine ⟨N + 1, fun n hn => ?_⟩
    obtain ⟨m, rfl⟩ : ∃ m, n = m + 1 := ⟨n - 1, by omega⟩
    rw [hshift]
    exact hN m (by omega)
  | write q t k ih =>
    obtain ⟨N, hN⟩ := ih (writeFile d q t)
    refine ⟨N + 1, fun n hn => ?_⟩
    obtain ⟨m, rfl⟩ : ∃ m, n = m + 1 := ⟨n - 1, by omega⟩
    rw [hshift]
    exact hN m (by omega)

/-- Once it has ended, nothing changes. -/
theorem alone_done (p : Prog ρ) (d : Files) (n : Nat) (r : ρ) (h : (alone p d n).1 = .ret r) :
    r = (p.run d).1 ∧ (alone p d n).2 = (p.run d).2 := by
  have hstay : ∀ m, alone p d (n + m) = alone p d n := by
    intro m
    induction m with
    | zero => rfl
    | succ m ih =>
      show (alone p d (n + m)).1.step (alone p d (n + m)).2 = _
      rw [ih]
      have : alone p d n = (.ret r, (alone p d n).2) := by rw [← h]
      rw [this]
      rfl
  obtain ⟨N, hN⟩ := alone_ends p d
  have h1 := hN (n + N) (by omega)
  rw [hstay N] at h1
  rw [h1] at h ⊢
  exact ⟨(Prog.ret.inj h).symm, rfl⟩

/-- Something that holds all along: of every action and the disk it meets. -/
def Along (Q : Action → Files → Prop) : Prog ρ → Files → Prop
  | .ret _, d => Q .done d
  | .read q k, d => Q (.reads q) d ∧ Along Q (k (lookup d q)) d
  | .write q t k, d => Q (.writes q) d ∧ Along Q k (writeFile d q t)

theorem Along.step {Q : Action → Files → Prop} {p : Prog ρ} {d : Files} (h : Along Q p d) : Along Q (p.step d).1 (p.step d).2 := by
  cases p with
  | ret r => exact h
  | read q k => exact h.2
  | write q t k => exact h.2

theorem Along.now {Q : Action → Files → Prop} {p : Prog ρ} {d : Files} (h : Along Q p d) : Q (nextAction p) d := by
  cases p with
  | ret r => exact h
  | read q k => exact h.1
  | write q t k => exact h.1

theorem Along.at {Q : Action → Files → Prop} {p : Prog ρ} {d : Files} (h : Along Q p d) (n : Nat) : Q (nextAction (alone p d n).1) (alone p d n).2 := by
  have : Along Q (alone p d n).1 (alone p d n).2 := by
    induction n with
    | zero => exact h
    | succ n ih => exact ih.step
  exact this.now

theorem Along.mono {Q Q' : Action → Files → Prop} (hQ : ∀ a d, Q a d → Q' a d) {p : Prog ρ} {d : Files} (h : Along Q p d) : Along Q' p d := by
  induction p generalizing d with
  | ret r => exact hQ _ _ h
  | read q k ih => exact ⟨hQ _ _ h.1, ih _ h.2⟩
  | write q t k ih => exact ⟨hQ _ _ h.1, ih h.2⟩

theorem Along.weaken {Q : Action → Files → Prop} {p : Prog ρ} {d : Files} (h : Along Q p d) : Along (fun a d => a ≠ .done → Q a d) p d :=
  Along.mono (Q' := fun a d => a ≠ .done → Q a d) (fun _ _ h _ => h) h

theorem Along.bind {σ : Type} {Q : Action → Files → Prop} {p : Prog ρ} {f : ρ → Prog σ} {d : Files}
    (hp : Along (fun a d => a ≠ .done → Q a d) p d) (hf : Along Q (f (p.run d).1) (p.run d).2) : Along Q (p.bind f) d := by
  induction p generalizing d with
  | ret r => exact hf
  | read q k ih => exact ⟨hp.1 (by simp), ih _ hp.2 hf⟩
  | write q t k ih => exact ⟨hp.1 (by simp), ih hp.2 hf⟩

/-- A process that only reads, and only certain files, whatever it finds in them. -/
def OnlyReads (R : String → Prop) : Prog ρ → Prop
  | .ret _ => True
  | .read q k => R q ∧ ∀ t, OnlyReads R (k t)
  | .write _ _ _ => False

theorem OnlyReads.bind {σ : Type} {R : String → Prop} {p : Prog ρ} {f : ρ → Prog σ} (hp : OnlyReads R p) (hf : ∀ r, OnlyReads R (f r)) :
    OnlyReads R (p.bind f) := by
  induction p with
  | ret r => exact hf r
  | read q k ih => exact ⟨hp.1, fun t => ih t (hp.2 t)⟩
  | write q t k ih => exact hp.elim

theorem OnlyReads.andThen {σ τ : Type} {R : String → Prop} {p : Prog (Except Err σ)} {f : σ → Prog (Except Err τ)} (hp : OnlyReads R p)
    (hf : ∀ r, OnlyReads R (f r)) : OnlyReads R (p.andThen f) := by
  refine hp.bind fun r => ?_
  cases r with
  | error e => trivial
  | ok r => exact hf r

theorem OnlyReads.along {R : String → Prop} {p : Prog ρ} (hp : OnlyReads R p) {Q : Action → Files → Prop} (d : Files)
    (hr : ∀ q, R q → Q (.reads q) d) (hd : Q .done d) : Along Q p d := by
  induction p with
  | ret r => exact hd
  | read q k ih => exact ⟨hr q hp.1, ih _ (hp.2 _)⟩
  | write q t k ih => exact hp.elim

theorem OnlyReads.disk {R : String → Prop} {p : Prog ρ} (hp : OnlyReads R p) (d : Files) : (p.run d).2 = d := by
  induction p with
  | ret r => rfl
  | read q k ih => exact ih _ (hp.2 _)
  | write q t k ih => exact hp.elim

theorem OnlyReads.mono {R R' : String → Prop} (h : ∀ q, R q → R' q) {p : Prog ρ} (hp : OnlyReads R p) : OnlyReads R' p := by
  induction p with
  | ret r => trivial
  | read q k ih => exact ⟨h _ hp.1, fun t => ih t (hp.2 t)⟩
  | write q t k ih => exact hp.elim

end PyFlowGo
