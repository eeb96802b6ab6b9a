import Verif.Proofs.SweepFootprint
/-
  C107: runs and sweeps in processes of their own, on one disk, under every schedule.
-/
set_option linter.unusedSectionVars false
namespace PyFlowGo
open Spec
variable {α : Type} [Add α] [Sub α] [Mul α] [Neg α] [OfScientific α] [PyNum α]

theorem job_solo (M : Machine α) (job : Job) (d : Files) :
    ∃ d', SameDisk ((job.prog M).run d).2 d' ∧ job.result M d = ((job.prog M).run d).1.map fun r => (r, d') := by
  cases job with
  | run j f =>
    obtain ⟨d', h1, h2⟩ := run_solo M.grid M.fuel M.F M.flush j f d
    unfold Job.prog Job.result
    dsimp only
    rw [Prog.run_bind, h2]
    refine ⟨d', h1, ?_⟩
    show _ = ((((runProg M.grid M.fuel M.F M.flush j f).run d).1.map fun o => o.map fun _ => []).map fun r => (r, d'))
    rw [Option.map_map, Option.map_map]
    rfl
  | sweep j f a b c => exact sweep_solo M.grid M.fuel M.F M.numText M.flush j f a b c d

theorem jobs_get (M : Machine α) {jobs : List Job} {i : Nat} {job : Job} (h : jobs[i]? = some job) :
    (jobs.map (Job.prog M))[i]? = some (job.prog M) := by rw [List.getElem?_map, h]; rfl

/-- **C107**. Runs and sweeps in processes of their own on one disk, none of which (on its own) writes a file another one reads or
    writes. Whatever the schedule: a process that has ended has the outcome it has when nobody else is there, and all files it
    reads or writes are as it leaves them then. -/
theorem C107_every_schedule (M : Machine α) (jobs : List Job) (d : Files) (hind : Independent (jobs.map (Job.prog M)) d) (σ : List Nat)
    (i : Nat) (job : Job) (hj : jobs[i]? = some job) (r : Option (Except Err (List String)))
    (hr : ((⟨jobs.map (Job.prog M), d⟩ : Sys _).exec σ).procs[i]? = some (.ret r)) :
    r = (job.result M d).map Prod.fst ∧ ∀ o d', job.result M d = some (o, d') →
      ∀ q, ReadsAlone (job.prog M) d q ∨ WritesAlone (job.prog M) d q →
        lookup ((⟨jobs.map (Job.prog M), d⟩ : Sys _).exec σ).disk q = lookup d' q := by
  obtain ⟨h1, h2⟩ := (isolation (jobs.map (Job.prog M)) d hind σ).1 i _ (jobs_get M hj)
  rw [hr] at h1
  obtain ⟨g1, g2⟩ := alone_done (job.prog M) d _ r (Option.some.inj h1).symm
  obtain ⟨d', k1, k2⟩ := job_solo M job d
  refine ⟨?_, fun o d'' ho q hq => ?_⟩
  · rw [k2, g1, Option.map_map]
    cases ((job.prog M).run d).1 <;> rfl
  · rw [h2 q hq, g2, k1 q]
    rw [k2] at ho
    cases hv : ((job.prog M).run d).1 with
    | none => rw [hv] at ho; cases ho
    | some v =>
      rw [hv] at ho
      obtain ⟨_, rfl⟩ := Prod.mk.inj (Option.some.inj ho)
      rfl

/-- **C107**: a file that none of them writes (on its own) keeps its content under every schedule. -/
theorem C107_other_files (M : Machine α) (jobs : List Job) (d : Files) (hind : Independent (jobs.map (Job.prog M)) d) (σ : List Nat) (q : String)
    (hq : ∀ job ∈ jobs, ¬ WritesAlone (job.prog M) d q) : lookup ((⟨jobs.map (Job.prog M), d⟩ : Sys _).exec σ).disk q = lookup d q := by
  refine (isolation (jobs.map (Job.prog M)) d hind σ).2 q fun i p hp => ?_
  rw [List.getElem?_map, Option.map_eq_some_iff] at hp
  obtain ⟨job, hj, rfl⟩ := hp
  exact hq job (List.mem_of_getElem? hj)

/-- **C107**: no process waits for another: there is a number of steps after which it has ended, whatever the schedule. -/
theorem C107_everyone_ends (M : Machine α) (jobs : List Job) (d : Files) (hind : Independent (jobs.map (Job.prog M)) d)
    (i : Nat) (job : Job) (hj : jobs[i]? = some job) :
    ∃ N, ∀ σ : List Nat, N ≤ σ.count i → ((⟨jobs.map (Job.prog M), d⟩ : Sys _).exec σ).procs[i]? = some (.ret ((job.result M d).map Prod.fst)) := by
  obtain ⟨N, hN⟩ := alone_ends (job.prog M) d
  refine ⟨N, fun σ hσ => ?_⟩
  obtain ⟨h1, _⟩ := (isolation (jobs.map (Job.prog M)) d hind σ).1 i _ (jobs_get M hj)
  have h2 : ((⟨jobs.map (Job.prog M), d⟩ : Sys _).exec σ).procs[i]? = some (.ret ((job.prog M).run d).1) := by
    rw [h1, hN _ hσ]
  rw [h2, (C107_every_schedule M jobs d hind σ i job hj _ h2).1]

/-- **C107**: the order in which the steps are taken does not matter: two schedules under which all have ended leave the same
    outcomes and the same files. In particular the jobs can be run one after the other, in any order. -/
theorem C107_order_does_not_matter (M : Machine α) (jobs : List Job) (d : Files) (hind : Independent (jobs.map (Job.prog M)) d) (σ τ : List Nat)
    (hσ : ∀ i, i < jobs.length → ∃ r, ((⟨jobs.map (Job.prog M), d⟩ : Sys _).exec σ).procs[i]? = some (.ret r))
    (hτ : ∀ i, i < jobs.length → ∃ r, ((⟨jobs.map (Job.prog M), d⟩ : Sys _).exec τ).procs[i]? = some (.ret r)) :
    ((⟨jobs.map (Job.prog M), d⟩ : Sys _).exec σ).procs = ((⟨jobs.map (Job.prog M), d⟩ : Sys _).exec τ).procs ∧
    SameFiles ((⟨jobs.map (Job.prog M), d⟩ : Sys _).exec σ).disk ((⟨jobs.map (Job.prog M), d⟩ : Sys _).exec τ).disk := by
  constructor
  · refine List.ext_getElem? fun i => ?_
    by_cases hi : i < jobs.length
    · obtain ⟨job, hj⟩ : ∃ job, jobs[i]? = some job := ⟨_, List.getElem?_eq_getElem hi⟩
      obtain ⟨r, hr⟩ := hσ i hi
      obtain ⟨r', hr'⟩ := hτ i hi
      rw [hr, hr', (C107_every_schedule M jobs d hind σ i job hj r hr).1, (C107_every_schedule M jobs d hind τ i job hj r' hr').1]
    · rw [List.getElem?_eq_none (by rw [exec_length]; simpa using hi), List.getElem?_eq_none (by rw [exec_length]; simpa using hi)]
  · intro q
    by_cases hq : ∃ job ∈ jobs, WritesAlone (job.prog M) d q
    · obtain ⟨job, hmem, hw⟩ := hq
      obtain ⟨i, hi, rfl⟩ := List.getElem_of_mem hmem
      have hj : jobs[i]? = some jobs[i] := List.getElem?_eq_getElem hi
      obtain ⟨r, hr⟩ := hσ i hi
      obtain ⟨r', hr'⟩ := hτ i hi
      obtain ⟨a1, a2⟩ := (isolation (jobs.map (Job.prog M)) d hind σ).1 i _ (jobs_get M hj)
      obtain ⟨b1, b2⟩ := (isolation (jobs.map (Job.prog M)) d hind τ).1 i _ (jobs_get M hj)
      rw [hr] at a1
      rw [hr'] at b1
      rw [a2 q (Or.inr hw), b2 q (Or.inr hw), (alone_done _ d _ r (Option.some.inj a1).symm).2, (alone_done _ d _ r' (Option.some.inj b1).symm).2]
    · have : ∀ job ∈ jobs, ¬ WritesAlone (job.prog M) d q := fun job h hw => hq ⟨job, h, hw⟩
      rw [C107_other_files M jobs d hind σ q this, C107_other_files M jobs d hind τ q this]

/-- **C107**: what a run touches: it reads its configuration, and if that is one, the slope profile it names and the
    crust-temperature profile; it writes the result file named after its lava and effusion rate. -/
theorem C107_run_touches (M : Machine α) (jsonFile folder : String) (d : Files) (q : String) :
    (ReadsAlone (Job.prog M (.run jsonFile folder)) d q → RunReads M.F d jsonFile q) ∧
    (WritesAlone (Job.prog M (.run jsonFile folder)) d q → RunWrites M.F d jsonFile folder q) := by
  have h : Along (fun a _ => (∀ q, a = .reads q → RunReads M.F d jsonFile q) ∧ ∀ q, a = .writes q → RunWrites M.F d jsonFile folder q)
      (Job.prog M (.run jsonFile folder)) d := by
    refine Along.bind (((run_along M.grid M.fuel M.F M.flush jsonFile folder d).mono
      (Q' := fun a _ => (∀ q, a = .reads q → RunReads M.F d jsonFile q) ∧ ∀ q, a = .writes q → RunWrites M.F d jsonFile folder q)
      fun a e h => ⟨h.reads, h.writes⟩).weaken) ?_
    exact ⟨(fun q h => by cases h), (fun q h => by cases h)⟩
  exact ⟨fun ⟨n, hn⟩ => (h.at n).1 q hn, fun ⟨n, hn⟩ => (h.at n).2 q hn⟩

/-- **C107**: what a sweep touches (the numbers of the template can be written and read back): it reads the template, its working
    copy in the results folder and the profiles a run on the template may read; it writes the working copy and the result
    files of its rates. -/
theorem C107_sweep_touches (M : Machine α) (jsonFile folder : String) (first last step : Int) (d : Files)
    (hnums : ∀ template, Holds M.F d jsonFile template → NumsAll (Readable M.F.float M.numText) template) (q : String) :
    (ReadsAlone (Job.prog M (.sweep jsonFile folder first last step)) d q → SweepReads M.F d jsonFile folder q) ∧
    (WritesAlone (Job.prog M (.sweep jsonFile folder first last step)) d q → SweepWrites M.F d jsonFile folder first last step q) := by
  by_cases hh : ∃ template : Json α, Holds M.F d jsonFile template
  · obtain ⟨template, hh⟩ := hh
    cases hr : sweepRates first last step with
    | error x =>
      have h := sweep_refused M jsonFile folder first last step d (Or.inr ⟨x, hr⟩)
      exact ⟨fun ⟨n, hn⟩ => Or.inl ((h.at n).2.1 q hn), fun ⟨n, hn⟩ => absurd hn ((h.at n).2.2 q)⟩
    | ok rates =>
      have h := sweep_along M jsonFile folder first last step d hh (hnums _ hh) hr
      exact ⟨fun ⟨n, hn⟩ => (h.at n).reads q hn, fun ⟨n, hn⟩ => (h.at n).writes q hn⟩
  · have h := sweep_refused M jsonFile folder first last step d (Or.inl fun t ht => hh ⟨t, ht⟩)
    exact ⟨fun ⟨n, hn⟩ => Or.inl ((h.at n).2.1 q hn), fun ⟨n, hn⟩ => absurd hn ((h.at n).2.2 q)⟩

theorem job_touches (M : Machine α) (job : Job) (d : Files)
    (hnums : ∀ j f a b c, job = .sweep j f a b c → ∀ template, Holds M.F d j template → NumsAll (Readable M.F.float M.numText) template) (q : String) :
    (ReadsAlone (job.prog M) d q → job.MayRead M.F d q) ∧ (WritesAlone (job.prog M) d q → job.MayWrite M.F d q) := by
  cases job with
  | run j f => exact C107_run_touches M j f d q
  | sweep j f a b c => exact C107_sweep_touches M j f a b c d (hnums j f a b c rfl) q

/-- **C107**: jobs are independent as soon as no file one of them may write is a file another one may read or write -- which can
    be checked on the configuration files before anything is started. -/
theorem C107_separate_files (M : Machine α) (jobs : List Job) (d : Files)
    (hnums : ∀ j f a b c, Job.sweep j f a b c ∈ jobs → ∀ template, Holds M.F d j template → NumsAll (Readable M.F.float M.numText) template)
    (hsep : ∀ (i j : Nat) (a b : Job), i ≠ j → jobs[i]? = some a → jobs[j]? = some b → ∀ q, a.MayWrite M.F d q → ¬ b.MayRead M.F d q ∧ ¬ b.MayWrite M.F d q) :
    Independent (jobs.map (Job.prog M)) d := by
  intro i j p p' hij hi hj q hw
  rw [List.getElem?_map, Option.map_eq_some_iff] at hi hj
  obtain ⟨a, ha, rfl⟩ := hi
  obtain ⟨b, hb, rfl⟩ := hj
  obtain ⟨h1, h2⟩ := hsep i j a b hij ha hb q ((job_touches M a d (fun j f x y z e => hnums j f x y z (e ▸ List.mem_of_getElem? ha)) q).2 hw)
  have hb' := job_touches M b d (fun j f x y z e => hnums j f x y z (e ▸ List.mem_of_getElem? hb)) q
  exact ⟨fun h => h1 (hb'.1 h), fun h => h2 (hb'.2 h)⟩

end PyFlowGo
