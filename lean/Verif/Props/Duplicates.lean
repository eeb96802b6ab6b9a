import Verif.Proofs.Compatible
import Verif.Props.Schedules
/-
  C110: the same run in several processes at the same time.
-/
set_option linter.unusedSectionVars false
namespace PyFlowGo
open Spec
variable {α : Type} [Add α] [Sub α] [Mul α] [Neg α] [OfScientific α] [PyNum α]

theorem jobs_compatible (M : Machine α) (jobs : List Job) (d : Files)
    (hnums : ∀ j f a b c, Job.sweep j f a b c ∈ jobs → ∀ template, Holds M.F d j template → NumsAll (Readable M.F.float M.numText) template)
    (hsep : ∀ (i j : Nat) (a b : Job), i ≠ j → jobs[i]? = some a → jobs[j]? = some b → ∀ q, a.MayWrite M.F d q →
      ¬ b.MayRead M.F d q ∧ (b.MayWrite M.F d q → a = b)) : Compatible (jobs.map (Job.prog M)) d := by
  intro i j p p' hij hi hj q hw
  rw [List.getElem?_map, Option.map_eq_some_iff] at hi hj
  obtain ⟨a, ha, rfl⟩ := hi
  obtain ⟨b, hb, rfl⟩ := hj
  have ta := job_touches M a d (fun j f a b c e => hnums j f a b c (e ▸ (List.mem_of_getElem? ha))) q
  have tb := job_touches M b d (fun j f a b c e => hnums j f a b c (e ▸ (List.mem_of_getElem? hb))) q
  obtain ⟨h1, h2⟩ := hsep i j a b hij ha hb q (ta.2 hw)
  refine ⟨fun h => h1 (tb.1 h), fun h => ?_⟩
  rw [h2 (tb.2 h)]

/-- **C110**. Runs and sweeps in processes of their own, where no file one of them may write is one another may read, and two of
    them may write the same file only if they are the same job (which then is a run: a sweep reads its working copy). Under every
    schedule a process that has ended has the outcome it has on its own, and there is a number of steps after which it has
    ended. -/
theorem C110_outcomes (M : Machine α) (jobs : List Job) (d : Files)
    (hnums : ∀ j f a b c, Job.sweep j f a b c ∈ jobs → ∀ template, Holds M.F d j template → NumsAll (Readable M.F.float M.numText) template)
    (hsep : ∀ (i j : Nat) (a b : Job), i ≠ j → jobs[i]? = some a → jobs[j]? = some b → ∀ q, a.MayWrite M.F d q →
      ¬ b.MayRead M.F d q ∧ (b.MayWrite M.F d q → a = b)) (i : Nat) (job : Job) (hj : jobs[i]? = some job) :
    (∀ (σ : List Nat) r, ((⟨jobs.map (Job.prog M), d⟩ : Sys _).exec σ).procs[i]? = some (.ret r) → r = (job.result M d).map Prod.fst) ∧
    ∃ N, ∀ σ : List Nat, N ≤ σ.count i → ∃ r, ((⟨jobs.map (Job.prog M), d⟩ : Sys _).exec σ).procs[i]? = some (.ret r) := by
  have hc := jobs_compatible M jobs d hnums hsep
  obtain ⟨d', k1, k2⟩ := job_solo M job d
  constructor
  · intro σ r hr
    have h1 := ((compatible_schedule _ d hc σ).1 i _ (jobs_get M hj)).1
    rw [hr] at h1
    obtain ⟨g1, _⟩ := alone_done (job.prog M) d _ r (Option.some.inj h1).symm
    rw [k2, g1, Option.map_map]
    cases ((job.prog M).run d).1 <;> rfl
  · obtain ⟨N, hN⟩ := alone_ends (job.prog M) d
    refine ⟨N, fun σ hσ => ⟨((job.prog M).run d).1, ?_⟩⟩
    rw [((compatible_schedule _ d hc σ).1 i _ (jobs_get M hj)).1, hN _ hσ]

/-- **C110**: and when all have ended, every file is as the job that may write it leaves it on its own, and a file that none of
    them may write is as before -- no matter how the writes of equal runs into their common result file were interleaved. -/
theorem C110_files (M : Machine α) (jobs : List Job) (d : Files)
    (hnums : ∀ j f a b c, Job.sweep j f a b c ∈ jobs → ∀ template, Holds M.F d j template → NumsAll (Readable M.F.float M.numText) template)
    (hsep : ∀ (i j : Nat) (a b : Job), i ≠ j → jobs[i]? = some a → jobs[j]? = some b → ∀ q, a.MayWrite M.F d q →
      ¬ b.MayRead M.F d q ∧ (b.MayWrite M.F d q → a = b)) (σ : List Nat)
    (hend : ∀ i, i < jobs.length → ∃ r, ((⟨jobs.map (Job.prog M), d⟩ : Sys _).exec σ).procs[i]? = some (.ret r)) :
    (∀ job ∈ jobs, ∀ o d', job.result M d = some (o, d') → ∀ q, job.MayWrite M.F d q →
      lookup ((⟨jobs.map (Job.prog M), d⟩ : Sys _).exec σ).disk q = lookup d' q) ∧
    ∀ q, (∀ job ∈ jobs, ¬ job.MayWrite M.F d q) → lookup ((⟨jobs.map (Job.prog M), d⟩ : Sys _).exec σ).disk q = lookup d q := by
  have hc := jobs_compatible M jobs d hnums hsep
  obtain ⟨_, h2, h3⟩ := compatible_end _ d hc σ (fun i hi => hend i (by simpa using hi))
  have hmem : ∀ {i : Nat} {p}, (jobs.map (Job.prog M))[i]? = some p → ∃ job, jobs[i]? = some job ∧ job ∈ jobs ∧ job.prog M = p := by
    intro i p hp
    rw [List.getElem?_map, Option.map_eq_some_iff] at hp
    obtain ⟨job, hj, e⟩ := hp
    exact ⟨job, hj, List.mem_of_getElem? hj, e⟩
  refine ⟨fun job hm o d' ho q hq => ?_, fun q hq => h3 q fun i p hp hw => ?_⟩
  · obtain ⟨i, hi, rfl⟩ := List.getElem_of_mem hm
    have hj : jobs[i]? = some jobs[i] := List.getElem?_eq_getElem hi
    obtain ⟨d'', k1, k2⟩ := job_solo M jobs[i] d
    have hd : SameDisk ((jobs[i].prog M).run d).2 d' := by
      rw [k2] at ho
      cases hv : ((jobs[i].prog M).run d).1 with
      | none => rw [hv] at ho; cases ho
      | some v =>
        rw [hv] at ho
        obtain ⟨_, rfl⟩ := Prod.mk.inj (Option.some.inj ho)
        exact k1
    by_cases hw : WritesAlone (jobs[i].prog M) d q
    · rw [h2 q i _ (jobs_get M hj) hw, hd]
    · have hsame : lookup ((jobs[i].prog M).run d).2 q = lookup d q := by
        obtain ⟨N, hN⟩ := alone_ends (jobs[i].prog M) d
        have := alone_keeps (jobs[i].prog M) d N q
        rw [hN N le_rfl] at this
        exact this.resolve_right hw
      rw [← hd, hsame]
      refine h3 q fun k p hp hw' => ?_
      obtain ⟨job, hk, hkm, rfl⟩ := hmem hp
      by_cases hik : i = k
      · subst hik
        rw [hj] at hk
        obtain rfl := Option.some.inj hk
        exact hw hw'
      · have := (hsep i k jobs[i] job hik hj hk q hq).2 ((job_touches M job d (fun j f a b c e => hnums j f a b c (e ▸ hkm)) q).2 hw')
        rw [← this] at hw'
        exact hw hw'
  · obtain ⟨job, _, hkm, rfl⟩ := hmem hp
    exact hq job hkm ((job_touches M job d (fun j f a b c e => hnums j f a b c (e ▸ hkm)) q).2 hw)

/-- **C110**, one run in `n + 1` processes at the same time: if it does not read its own result file, all of them end as the run on its
    own, and when all have ended the disk is as after one. -/
theorem C110_many_times (M : Machine α) (jsonFile folder : String) (n : Nat) (d : Files)
    (hsafe : ∀ q, RunWrites M.F d jsonFile folder q → ¬ RunReads M.F d jsonFile q)
    (σ : List Nat)
    (hend : ∀ i, i ≤ n → ∃ r, ((⟨List.replicate (n + 1) (Job.prog M (.run jsonFile folder)), d⟩ : Sys _).exec σ).procs[i]? = some (.ret r)) :
    ((⟨List.replicate (n + 1) (Job.prog M (.run jsonFile folder)), d⟩ : Sys _).exec σ).procs =
      List.replicate (n + 1) (.ret ((Job.result M d (.run jsonFile folder)).map Prod.fst)) ∧
    ∀ o d', Job.result M d (.run jsonFile folder) = some (o, d') →
      SameFiles ((⟨List.replicate (n + 1) (Job.prog M (.run jsonFile folder)), d⟩ : Sys _).exec σ).disk d' := by
  have hrep : List.replicate (n + 1) (Job.prog M (.run jsonFile folder)) = (List.replicate (n + 1) (Job.run jsonFile folder)).map (Job.prog M) := by
    rw [List.map_replicate]
  have hall : ∀ {i : Nat} {a : Job}, (List.replicate (n + 1) (Job.run jsonFile folder))[i]? = some a → a = .run jsonFile folder := by
    intro i a h
    exact List.eq_of_mem_replicate (List.mem_of_getElem? h)
  have hn' : ∀ j f a b c, Job.sweep j f a b c ∈ List.replicate (n + 1) (Job.run jsonFile folder) → ∀ template, Holds M.F d j template →
      NumsAll (Readable M.F.float M.numText) template := by
    intro j f a b c hm
    cases List.eq_of_mem_replicate hm
  have hsep : ∀ (i j : Nat) (a b : Job), i ≠ j → (List.replicate (n + 1) (Job.run jsonFile folder))[i]? = some a →
      (List.replicate (n + 1) (Job.run jsonFile folder))[j]? = some b → ∀ q, a.MayWrite M.F d q →
      ¬ b.MayRead M.F d q ∧ (b.MayWrite M.F d q → a = b) := by
    intro i j a b _ ha hb q hw
    obtain rfl := hall ha
    obtain rfl := hall hb
    exact ⟨hsafe q hw, fun _ => rfl⟩
  rw [hrep] at hend ⊢
  have hend' : ∀ i, i < (List.replicate (n + 1) (Job.run jsonFile folder)).length →
      ∃ r, ((⟨(List.replicate (n + 1) (Job.run jsonFile folder)).map (Job.prog M), d⟩ : Sys _).exec σ).procs[i]? = some (.ret r) := by
    intro i hi
    rw [List.length_replicate] at hi
    exact hend i (by omega)
  obtain ⟨f1, f2⟩ := C110_files M _ d hn' hsep σ hend'
  constructor
  · refine List.ext_getElem? fun i => ?_
    by_cases hi : i ≤ n
    · obtain ⟨r, hr⟩ := hend i hi
      have hj : (List.replicate (n + 1) (Job.run jsonFile folder))[i]? = some (.run jsonFile folder) := by
        rw [List.getElem?_replicate, if_pos (by omega)]
      rw [hr, (C110_outcomes M _ d hn' hsep i _ hj).1 σ r hr, List.getElem?_replicate, if_pos (by omega)]
    · rw [List.getElem?_eq_none (by rw [exec_length]; simp; omega), List.getElem?_eq_none (by simp; omega)]
  · intro o d' ho q
    by_cases hq : RunWrites M.F d jsonFile folder q
    · exact f1 (.run jsonFile folder) (by simp) o d' ho q hq
    · rw [f2 q fun job hm => by rw [List.eq_of_mem_replicate hm]; exact hq]
      obtain ⟨d'', k1, k2⟩ := job_solo M (.run jsonFile folder) d
      have hd : SameDisk ((Job.prog M (.run jsonFile folder)).run d).2 d' := by
        rw [k2] at ho
        cases hv : ((Job.prog M (.run jsonFile folder)).run d).1 with
        | none => rw [hv] at ho; cases ho
        | some v =>
          rw [hv] at ho
          obtain ⟨_, rfl⟩ := Prod.mk.inj (Option.some.inj ho)
          exact k1
      rw [← hd]
      obtain ⟨N, hN⟩ := alone_ends (Job.prog M (.run jsonFile folder)) d
      have := alone_keeps (Job.prog M (.run jsonFile folder)) d N q
      rw [hN N le_rfl] at this
      exact (this.resolve_right fun hw => hq ((C107_run_touches M jsonFile folder d q).2 hw)).symm

end PyFlowGo
