import Verif.Proofs.Restart
import Verif.Props.Schedules
/-
  C109: runs and sweeps that are interrupted at any moment, and started again.
-/
set_option linter.unusedSectionVars false
namespace PyFlowGo
open Spec
variable {α : Type} [Add α] [Sub α] [Mul α] [Neg α] [OfScientific α] [PyNum α]

/-- A job is not changed by what follows. -/
theorem job_run_alone (M : Machine α) (jsonFile folder : String) (d : Files) :
    Along (RunMoment M.grid M.fuel M.F jsonFile folder d) (Job.prog M (.run jsonFile folder)) d := by
  have h := run_along M.grid M.fuel M.F M.flush jsonFile folder d
  refine Along.bind h.weaken ?_
  obtain ⟨N, hN⟩ := alone_ends (runProg M.grid M.fuel M.F M.flush jsonFile folder) d
  have h1 := h.at N
  rw [hN N le_rfl] at h1
  exact h1

/-- **C109**. A run that is interrupted after any number of steps has changed no file but the result file named after its lava and
    effusion rate, and that one only if the complete run writes it: then it is as before, or a beginning of the text the
    complete run writes. -/
theorem C109_run_interrupted (M : Machine α) (jsonFile folder : String) (d : Files) (n : Nat) (q : String) :
    let e := (alone (Job.prog M (.run jsonFile folder)) d n).2
    lookup e q = lookup d q ∨ RunWrites M.F d jsonFile folder q ∧
      ∃ out k, runTextOn M.grid M.fuel M.F jsonFile folder d = some (.ok (), (q, out) :: d) ∧ lookup e q = some (out.take k) :=
  ((job_run_alone M jsonFile folder d).at n).files q

/-- **C109**. A sweep that is interrupted after any number of steps: for some `m` the disk is that of the complete sweep over the
    first `m` rates, except for the working copy, which may be a beginning of the configuration of the next rate, and the
    result file of the next rate, which may be a beginning of what its run writes. -/
theorem C109_sweep_interrupted (M : Machine α) (jsonFile folder : String) (first last step : Int) (d : Files) (template : Json α)
    (hh : Holds M.F d jsonFile template) (hnums : NumsAll (Readable M.F.float M.numText) template) (rates : List Int)
    (hrates : sweepRates first last step = .ok rates) (n : Nat) :
    HalfDone M template jsonFile folder first step rates d (alone (Job.prog M (.sweep jsonFile folder first last step)) d n).2 :=
  ((sweep_along M jsonFile folder first last step d hh hnums hrates).at n).files

/-- **C109**, file by file. No profile the runs read is the working copy or a result file of the template's lava, different rates
    have different result files, and the working copy is none of them. A sweep over `rates` that is interrupted after any number of
    steps was busy with some rate number `m` (or had ended): the results of the earlier rates are complete -- what a run on its own
    writes for that rate --, those of the later rates are as before the sweep, and the one of rate number `m` is as before or a
    beginning of what a run on its own writes. -/
theorem C109_results_after_interruption (M : Machine α) (jsonFile folder : String) (first last step : Int) (d : Files) (template : Json α)
    (hh : Holds M.F d jsonFile template) (hnums : NumsAll (Readable M.F.float M.numText) template) (rates : List Int)
    (hrates : sweepRates first last step = .ok rates) (lava : Json α) (hlava : TopEntry template "lava_name" lava) (result : Int → String)
    (hresult : ∀ r, result r = M.F.canon (resultFileName folder (lava.show (textEnv M.F d)) (toString r)))
    (hsafe : ∀ path, MayRead template path → M.F.canon path ≠ M.F.canon (workingFile jsonFile folder) ∧ ∀ r, M.F.canon path ≠ result r)
    (hinj : ∀ a b, result a = result b → a = b) (hwork : ∀ r, result r ≠ M.F.canon (workingFile jsonFile folder)) (n : Nat) :
    let e := (alone (Job.prog M (.sweep jsonFile folder first last step)) d n).2
    ∃ m, m ≤ rates.length ∧
      (∀ i r, i < m → rates[i]? = some r → ∃ run, StandAlone M.grid M.fuel M.F template (workingFile jsonFile folder) folder d r run ∧
        (run.files = [] ∧ lookup e (result r) = lookup d (result r) ∨ ∃ out, run.files = [(result r, out)] ∧ lookup e (result r) = some out)) ∧
      (∀ i r, m < i → rates[i]? = some r → lookup e (result r) = lookup d (result r)) ∧
      (∀ r, rates[m]? = some r → lookup e (result r) = lookup d (result r) ∨
        ∃ run out k, StandAlone M.grid M.fuel M.F template (workingFile jsonFile folder) folder d r run ∧
          run.files = [(result r, out)] ∧ lookup e (result r) = some (out.take k)) := by
  intro e
  obtain ⟨m, last', names, before, h1, h2, h3⟩ := C109_sweep_interrupted M jsonFile folder first last step d template hh hnums rates hrates n
  have h3 : SameFiles e before ∨ ∃ r, rates[m]? = some r ∧ Busy M template (workingFile jsonFile folder) folder before r e := h3
  generalize e = e at *
  obtain ⟨text, hl, ht⟩ := hh
  have hsafe' : ∀ path, MayRead template path → M.F.canon path ≠ M.F.canon (workingFile jsonFile folder) ∧
      ∀ lava', TopEntry template "lava_name" lava' → ∀ r : Int,
        M.F.canon path ≠ M.F.canon (resultFileName folder (lava'.show (textEnv M.F d)) (toString r)) := by
    refine fun path hp => ⟨(hsafe path hp).1, fun lava' hl' r => ?_⟩
    obtain rfl := topEntry_unique hl' hlava
    rw [← hresult]
    exact (hsafe path hp).2 r
  obtain ⟨rates', lava', runs, g1, g2, g3, g4, g5, g6⟩ := C89_sweep_on_texts M.grid M.fuel M.F M.numText jsonFile folder first last' step d before text
    template hl ht hnums hsafe' names h2
  rw [h1] at g1
  obtain rfl := Except.ok.inj g1
  have hnd : rates.Nodup := sweepRates_nodup hrates
  -- what the complete part left
  have hold : (∀ r, r ∉ rates.take m → lookup before (result r) = lookup d (result r)) ∧
      (∀ i r, i < m → rates[i]? = some r → ∃ run, StandAlone M.grid M.fuel M.F template (workingFile jsonFile folder) folder d r run ∧
        (run.files = [] ∧ lookup before (result r) = lookup d (result r) ∨ ∃ out, run.files = [(result r, out)] ∧ lookup before (result r) = some out)) := by
    have g5' : List.Forall₂ (fun r (o : TextRun α) => o.files = [] ∨ ∃ out, o.files = [(result r, out)]) (rates.take m) runs := by
      by_cases hne : rates.take m = []
      · rw [hne] at g4 ⊢
        cases g4
        exact .nil
      · obtain rfl := topEntry_unique (g2 hne) hlava
        rw [g3, List.forall₂_map_left_iff] at g5
        refine g5.imp fun r o h => ?_
        rw [hresult]
        exact h
    obtain ⟨a, b⟩ := lookup_runs (M.F.canon (workingFile jsonFile folder)) result hinj hwork d (rates.take m) runs (hnd.sublist (List.take_sublist _ _)) g5'
    rw [← g6] at a b
    refine ⟨a, fun i r hi hr => ?_⟩
    have hall := forall₂_both (forall₂_both g4 g5') b
    have hi' : (rates.take m)[i]? = some r := by rw [List.getElem?_take, if_pos hi]; exact hr
    obtain ⟨hlt, e1⟩ := List.getElem?_eq_some_iff.mp hi'
    have hlt' : i < runs.length := by rw [← hall.length_eq]; exact hlt
    obtain ⟨⟨x, y⟩, z⟩ := hall.get hlt hlt'
    simp only [List.get_eq_getElem, e1] at x y z
    refine ⟨_, x, ?_⟩
    rcases y with y | ⟨out, y⟩
    · exact Or.inl ⟨y, by rw [z, y]; rfl⟩
    · exact Or.inr ⟨out, y, by rw [z, y, List.singleton_append, lookup_cons_eq, if_pos rfl]⟩
  -- result files other than that of the next rate
  have hrest : ∀ r, rates[m]? ≠ some r → lookup e (result r) = lookup before (result r) := by
    intro r hr
    rcases h3 with h | ⟨r', hr', data, hwith, hjt, hq⟩
    · exact h _
    · rcases hq (result r) with h | ⟨h, _⟩ | ⟨lv, out, k, hlv, h, _⟩
      · exact h
      · exact absurd h (hwork r)
      · obtain rfl := topEntry_unique hlv hlava
        have : lv.show (textEnv M.F []) = lv.show (textEnv M.F d) := by cases lv <;> rfl
        rw [this, ← hresult] at h
        exact absurd (by rw [hinj _ _ h]; exact hr') hr
  -- `m` may be taken at most the number of rates
  refine ⟨min m rates.length, Nat.min_le_right _ _, fun i r hi hr => ?_, fun i r hi hr => ?_, fun r hr => ?_⟩
  · have him : i < m := Nat.lt_of_lt_of_le hi (Nat.min_le_left _ _)
    have hne : rates[m]? ≠ some r := by
      intro h
      have := (List.nodup_iff_getElem?_ne_getElem?.mp hnd) i m him (List.getElem?_eq_some_iff.mp h).1
      exact this (by rw [hr, h])
    obtain ⟨run, x, y⟩ := hold.2 i r him hr
    refine ⟨run, x, ?_⟩
    rw [hrest r hne]
    exact y
  · have hil : i < rates.length := (List.getElem?_eq_some_iff.mp hr).1
    have hmi : m < i := by omega
    have hne : rates[m]? ≠ some r := by
      intro h
      have := (List.nodup_iff_getElem?_ne_getElem?.mp hnd) m i hmi hil
      exact this (by rw [hr, h])
    rw [hrest r hne]
    refine hold.1 r fun hmem => ?_
    obtain ⟨j, hj⟩ := List.getElem?_of_mem hmem
    rw [List.getElem?_take] at hj
    split at hj
    · rename_i hjm
      exact (List.nodup_iff_getElem?_ne_getElem?.mp hnd) j i (by omega) hil (by rw [hj, hr])
    · cases hj
  · have hml : m < rates.length := by
      have := (List.getElem?_eq_some_iff.mp hr).1
      omega
    have hr : rates[m]? = some r := by rw [← hr, Nat.min_eq_left (by omega)]
    have hnot : r ∉ rates.take m := by
      intro hmem
      obtain ⟨j, hj⟩ := List.getElem?_of_mem hmem
      rw [List.getElem?_take] at hj
      split at hj
      · rename_i hjm
        exact (List.nodup_iff_getElem?_ne_getElem?.mp hnd) j m hjm hml (by rw [hj, hr])
      · cases hj
    rcases h3 with h | ⟨r', hr', data, hwith, hjt, hq⟩
    · exact Or.inl (by rw [h, hold.1 r hnot])
    · rw [hr] at hr'
      obtain rfl := Option.some.inj hr'
      rcases hq (result r) with h | ⟨h, _⟩ | ⟨lv, out, k, hlv, h, hrun, hk⟩
      · exact Or.inl (by rw [h, hold.1 r hnot])
      · exact absurd h (hwork r)
      · refine Or.inr ⟨⟨data, stored M.F.windows (jsonDump M.numText data), [(result r, out)]⟩, out, k, ⟨hwith, hjt, ?_⟩, rfl, hk⟩
        intro other text' hlk' hjt' hsame
        have hbefore : ∀ path, MayRead template path → lookup before (M.F.canon path) = lookup d (M.F.canon path) := by
          intro path hp
          refine C89_other_files_untouched M.grid M.fuel M.F M.numText jsonFile folder first last' step d before text template hl ht hnums _ h2 path
            (hsafe' path hp).1 (hsafe' path hp).2
        obtain ⟨outcome, a, b, _⟩ := C82_inputs_determine_result M.F M.grid M.fuel (workingFile jsonFile folder) folder
          ((M.F.canon (workingFile jsonFile folder), stored M.F.windows (jsonDump M.numText data)) :: before) other _ text' data
          (by rw [lookup_cons_eq, if_pos rfl]) hlk' hjt hjt' (fun path hp => by
            have hp' := (mayRead_withRate hwith path).mp hp
            rw [lookup_cons_eq, if_neg (fun h => (hsafe path hp').1 h.symm), hbefore path hp', hsame path hp'])
        rw [hrun] at a
        cases outcome with
        | none => cases a
        | some o =>
          obtain ⟨a1, a2⟩ := Prod.mk.inj (Option.some.inj a)
          have a3 : o.2 = [(result r, out)] := List.append_cancel_right (as := o.2) (cs := [(result r, out)]) a2.symm
          rw [b]
          simp only [Option.map_some, ← a1, a3]

theorem result_outcome (M : Machine α) (job : Job) (d e : Files) (h1 : ((job.prog M).run e).1 = ((job.prog M).run d).1)
    (h2 : SameDisk ((job.prog M).run e).2 ((job.prog M).run d).2) :
    (job.result M d = none ∧ job.result M e = none) ∨
    ∃ o d' e', job.result M d = some (o, d') ∧ job.result M e = some (o, e') ∧ SameFiles e' d' := by
  obtain ⟨a, a1, a2⟩ := job_solo M job d
  obtain ⟨b, b1, b2⟩ := job_solo M job e
  rw [a2, b2, h1]
  cases ((job.prog M).run d).1 with
  | none => exact Or.inl ⟨rfl, rfl⟩
  | some o => exact Or.inr ⟨o, a, b, rfl, rfl, (b1.symm.trans h2).trans a1⟩

/-- **C109**. A run whose result file is none of the files it reads can be interrupted as often as one likes, at any moments, and
    started again: it ends as it would have ended in the first place, and leaves the same files. -/
theorem C109_run_again (M : Machine α) (jsonFile folder : String) (d : Files)
    (hsafe : ∀ q, RunWrites M.F d jsonFile folder q → ¬ RunReads M.F d jsonFile q) (e : Files)
    (he : Attempts (Job.prog M (.run jsonFile folder)) d e) :
    (Job.result M d (.run jsonFile folder) = none ∧ Job.result M e (.run jsonFile folder) = none) ∨
    ∃ o d' e', Job.result M d (.run jsonFile folder) = some (o, d') ∧ Job.result M e (.run jsonFile folder) = some (o, e') ∧ SameFiles e' d' := by
  have hf : Fresh (WritesAlone (Job.prog M (.run jsonFile folder)) d) (Job.prog M (.run jsonFile folder)) d :=
    Fresh.bind (run_fresh M jsonFile folder d fun q hq => hsafe q ((C107_run_touches M jsonFile folder d q).2 hq)) trivial
  obtain ⟨h1, h2⟩ := restart hf he
  exact result_outcome M _ d e h1 h2

/-- **C109**. A sweep that writes neither its template nor a profile its runs read can be interrupted as often as one likes, at any
    moments, and started again: it ends as it would have ended in the first place, and leaves the same files. -/
theorem C109_sweep_again (M : Machine α) (jsonFile folder : String) (first last step : Int) (d : Files)
    (hnums : ∀ template, Holds M.F d jsonFile template → NumsAll (Readable M.F.float M.numText) template)
    (hsafe : ∀ q, SweepWrites M.F d jsonFile folder first last step q → q ≠ M.F.canon jsonFile ∧
      ∀ template path, Holds M.F d jsonFile template → MayRead template path → q ≠ M.F.canon path) (e : Files)
    (he : Attempts (Job.prog M (.sweep jsonFile folder first last step)) d e) :
    (Job.result M d (.sweep jsonFile folder first last step) = none ∧ Job.result M e (.sweep jsonFile folder first last step) = none) ∨
    ∃ o d' e', Job.result M d (.sweep jsonFile folder first last step) = some (o, d') ∧
      Job.result M e (.sweep jsonFile folder first last step) = some (o, e') ∧ SameFiles e' d' := by
  have hwr := fun q => (C107_sweep_touches M jsonFile folder first last step d hnums q).2
  have hf : Fresh (WritesAlone (Job.prog M (.sweep jsonFile folder first last step)) d) (Job.prog M (.sweep jsonFile folder first last step)) d := by
    generalize WritesAlone (Job.prog M (.sweep jsonFile folder first last step)) d = W at *
    refine ⟨fun hq => (hsafe _ (hwr _ hq)).1 rfl, ?_⟩
    cases hl : lookup d (M.F.canon jsonFile) with
    | none => trivial
    | some text =>
      dsimp only
      cases hj : jsonLoad M.F.float text with
      | error x => trivial
      | ok template =>
        dsimp only
        have hh : Holds M.F d jsonFile template := ⟨text, hl, (jsonLoads_iff M.F.float _ template).mp hj⟩
        cases sweepRates first last step with
        | error x => trivial
        | ok rates =>
          exact sweepLoop_fresh M template _ folder (C79_loaded_keys_distinct M.F.float text template hj) (hnums _ hh)
            (fun q hq path hp => (hsafe q (hwr q hq)).2 template path hh hp) rates [] d
  obtain ⟨h1, h2⟩ := restart hf he
  exact result_outcome M _ d e h1 h2

end PyFlowGo
