import Verif.Proofs.SavingSchedule
import Verif.Props.Schedules
/-
  C111: a configuration file that is saved while a run or a sweep reads it.
-/
set_option linter.unusedSectionVars false
namespace PyFlowGo
open Spec
variable {α : Type} [Add α] [Sub α] [Mul α] [Neg α] [OfScientific α] [PyNum α]

/-- **C111**. While a run goes on, another program saves the text of a configuration (a JSON object) in the file the run reads. The
    profiles and the result are other files. Under every schedule, a run that has ended has ended with a ValueError and changed
    nothing, or as if the file had been replaced in one go between two of its steps: with the outcome, and the files, of the run that takes `n` steps
    before and the others after the replacement. -/
theorem C111_saved_during_a_run (M : Machine α) (jsonFile folder : String) (d : Files) (text : List Char) (l : List (String × Json α))
    (hnew : JsonText M.F.float (universal text) (.obj l)) (hapart : ∀ data, data = .obj l ∨ Holds M.F d jsonFile data → ConfigApart M.F jsonFile folder data)
    (σ : List Nat) (r : Option (Except Err (List String)))
    (hr : ((⟨[Job.prog M (.run jsonFile folder), saveProg M.flush (M.F.canon jsonFile) text], d⟩ : Sys _).exec σ).procs[0]? = some (.ret r)) :
    let c := M.F.canon jsonFile
    let s := (⟨[Job.prog M (.run jsonFile folder), saveProg M.flush c text], d⟩ : Sys _).exec σ
    (r = some (.error .valueError) ∧ SameBut c s.disk d) ∨
    ∃ n, let before := alone (Job.prog M (.run jsonFile folder)) d n
      let after := before.1.run (writeFile before.2 c text)
      r = after.1 ∧ SameBut c s.disk after.2 := by
  intro c s
  have hj : jsonLoad M.F.float text = .ok (.obj l) := (jsonLoads_iff M.F.float _ _).mpr hnew
  have hstrict := run_strict M jsonFile folder (fun data => data = .obj l ∨ Holds M.F d jsonFile data) hapart
  have h := saving_schedule M.F c (fun data => data = .obj l ∨ Holds M.F d jsonFile data) (some (.error .valueError)) d text l hj (Or.inl rfl)
    (Job.prog M (.run jsonFile folder)) hstrict
    (fun t data ht hdata => Or.inr ⟨t, ht, (jsonLoads_iff M.F.float _ _).mp hdata⟩) M.flush (some (.ok [])) σ
  change s.procs[0]? = _ at hr
  rcases h with ⟨n, he, _⟩ | ⟨p', S', hprocs, _, hrest⟩
  · right
    have hes : s = _ := he
    rw [hes] at hr
    have hr : (alone (Job.prog M (.run jsonFile folder)) d n).1 = .ret r := Option.some.inj hr
    refine ⟨n, ?_⟩
    dsimp only
    rw [hr]
    refine ⟨rfl, fun q hq => ?_⟩
    rw [hes]
    show lookup (alone (Job.prog M (.run jsonFile folder)) d n).2 q = lookup (writeFile (alone (Job.prog M (.run jsonFile folder)) d n).2 c text) q
    rw [lookup_writeFile, if_neg (fun h => hq h.symm)]
  · have hprocs : s.procs = [p', S'] := hprocs
    rw [hprocs] at hr
    have hr : p' = .ret r := Option.some.inj hr
    subst hr
    rcases hrest with ⟨h1, h2⟩ | ⟨n, m, h1, h2, _, _⟩
    · left
      exact ⟨Prog.ret.inj h1, h2⟩
    · right
      refine ⟨n, ?_⟩
      obtain ⟨g1, g2⟩ := alone_done _ _ m r h1.symm
      exact ⟨g1, fun q hq => by rw [← g2]; exact h2 q hq⟩

/-- **C111**: the save is never lost: once it is done the file holds the new text, whatever the run did. -/
theorem C111_the_save_is_complete (M : Machine α) (jsonFile folder : String) (d : Files) (text : List Char) (l : List (String × Json α))
    (hnew : JsonText M.F.float (universal text) (.obj l)) (hapart : ∀ data, data = .obj l ∨ Holds M.F d jsonFile data → ConfigApart M.F jsonFile folder data)
    (σ : List Nat) (r : Option (Except Err (List String)))
    (hr : ((⟨[Job.prog M (.run jsonFile folder), saveProg M.flush (M.F.canon jsonFile) text], d⟩ : Sys _).exec σ).procs[1]? = some (.ret r)) :
    lookup ((⟨[Job.prog M (.run jsonFile folder), saveProg M.flush (M.F.canon jsonFile) text], d⟩ : Sys _).exec σ).disk (M.F.canon jsonFile) = some text := by
  have hj : jsonLoad M.F.float text = .ok (.obj l) := (jsonLoads_iff M.F.float _ _).mpr hnew
  have hstrict := run_strict M jsonFile folder (fun data => data = .obj l ∨ Holds M.F d jsonFile data) hapart
  have h := saving_schedule M.F (M.F.canon jsonFile) (fun data => data = .obj l ∨ Holds M.F d jsonFile data) (some (.error .valueError)) d text l hj (Or.inl rfl)
    (Job.prog M (.run jsonFile folder)) hstrict
    (fun t data ht hdata => Or.inr ⟨t, ht, (jsonLoads_iff M.F.float _ _).mp hdata⟩) M.flush (some (.ok [])) σ
  unfold saveProg at hr ⊢
  rcases h with ⟨n, he, _⟩ | ⟨p', S', hprocs, ⟨k, hk, hS⟩, _⟩
  · rw [he] at hr
    cases hr
  · rw [hprocs] at hr
    have hr : S' = .ret r := Option.some.inj hr
    subst hr
    rcases hS with h | ⟨_, h⟩
    · exact h.elim
    · rw [hk, h]

/-- Who never reads what it might have been given changed and does not write it, does not read it. -/
theorem Fresh.noReads {ρ : Type} {W : String → Prop} {p : Prog ρ} {d : Files} (h : Fresh W p d) (hw : ∀ q, W q → ¬ WritesAlone p d q) (q : String) (hq : W q) :
    ¬ ReadsAlone p d q := by
  induction p generalizing W d with
  | ret r =>
    rintro ⟨n, hn⟩
    have : ∀ n, (alone (.ret r : Prog ρ) d n).1 = .ret r := by
      intro n
      induction n with
      | zero => rfl
      | succ n ih => rw [alone_succ]; exact ih
    rw [this] at hn
    cases hn
  | read q' k ih =>
    rintro ⟨n, hn⟩
    cases n with
    | zero =>
      have hn : Action.reads q' = .reads q := hn
      cases hn
      exact h.1 hq
    | succ n =>
      rw [alone_succ] at hn
      exact ih _ h.2 (fun x hx hx' => hw x hx ((writes_read _ _ _ _).mpr hx')) hq ⟨n, hn⟩
  | write q' t k ih =>
    have hne : q ≠ q' := by
      rintro rfl
      exact hw q hq ((writes_write _ _ _ _ _).mpr (Or.inl rfl))
    rintro ⟨n, hn⟩
    cases n with
    | zero => cases hn
    | succ n =>
      rw [alone_succ] at hn
      exact ih h (fun x hx hx' => hw x hx.1 ((writes_write _ _ _ _ _).mpr (Or.inr hx'))) ⟨hq, hne⟩ ⟨n, hn⟩

/-- What is left of the saving of a file touches only that file. -/
theorem saver_touches {ρ : Type} {c : String} {text : List Char} {S : Prog ρ} (h : Saver c text S ∨ ∃ r, S = .ret r) (d : Files) (q : String) :
    ¬ ReadsAlone S d q ∧ (WritesAlone S d q → q = c) := by
  have key : ∀ n, Saver c text (alone S d n).1 ∨ ∃ r, (alone S d n).1 = .ret r := by
    intro n
    induction n with
    | zero => exact h
    | succ n ih =>
      show Saver c text ((alone S d n).1.step (alone S d n).2).1 ∨ ∃ r, ((alone S d n).1.step (alone S d n).2).1 = .ret r
      generalize alone S d n = a at ih
      obtain ⟨a1, a2⟩ := a
      cases a1 with
      | ret r => exact Or.inr ⟨r, rfl⟩
      | read q k =>
        rcases ih with h | ⟨r, h⟩
        · exact h.elim
        · cases h
      | write q t k =>
        rcases ih with ⟨_, _, h⟩ | ⟨r, h⟩
        · exact h.imp id fun h => h.1
        · cases h
  constructor
  · rintro ⟨n, hn⟩
    rcases key n with h | ⟨r, h⟩
    · cases hc : (alone S d n).1 with
      | ret r => rw [hc] at hn; cases hn
      | read q' k => rw [hc] at h; exact h.elim
      | write q' t k => rw [hc] at hn; cases hn
    · rw [h] at hn; cases hn
  · rintro ⟨n, hn⟩
    rcases key n with h | ⟨r, h⟩
    · cases hc : (alone S d n).1 with
      | ret r => rw [hc] at hn; cases hn
      | read q' k => rw [hc] at hn; cases hn
      | write q' t k =>
        rw [hc] at hn h
        have hn : Action.writes q' = .writes q := hn
        cases hn
        exact h.1
    · rw [h] at hn; cases hn

/-- Nobody but the saver has taken a step. -/
theorem saver_first {ρ : Type} (p : Prog ρ) (flush : List Char → List Nat) (c : String) (text : List Char) (r0 : ρ) (d : Files) (σ : List Nat) (hσ : 0 ∉ σ) :
    ∃ S, ((⟨[p, .save flush c text (.ret r0)], d⟩ : Sys ρ).exec σ).procs = [p, S] ∧
      (S = .save flush c text (.ret r0) ∧ ((⟨[p, .save flush c text (.ret r0)], d⟩ : Sys ρ).exec σ).disk = d ∨
        (Saver c text S ∨ ∃ r, S = .ret r) ∧ SameBut c ((⟨[p, .save flush c text (.ret r0)], d⟩ : Sys ρ).exec σ).disk d ∧
          ∃ k, lookup ((⟨[p, .save flush c text (.ret r0)], d⟩ : Sys ρ).exec σ).disk c = some (text.take k)) := by
  obtain ⟨k0, hk0, hsav⟩ := saver_save flush c text r0
  induction σ using List.reverseRecOn with
  | nil => exact ⟨_, rfl, Or.inl ⟨rfl, rfl⟩⟩
  | append_singleton σ j ih =>
    rw [exec_snoc]
    obtain ⟨S, h1, h2⟩ := ih (fun h => hσ (List.mem_append_left _ h))
    generalize (⟨[p, .save flush c text (.ret r0)], d⟩ : Sys ρ).exec σ = s at *
    obtain ⟨procs, e⟩ := s
    have h1 : procs = [p, S] := h1
    subst h1
    match j with
    | 0 => exact absurd (List.mem_append_right _ (List.mem_singleton.mpr rfl)) hσ
    | j + 2 => exact ⟨S, rfl, h2⟩
    | 1 =>
      show ∃ S', [p, (S.step e).1] = [p, S'] ∧ _
      refine ⟨(S.step e).1, rfl, Or.inr ?_⟩
      show (Saver c text (S.step e).1 ∨ ∃ r, (S.step e).1 = .ret r) ∧ SameBut c (S.step e).2 d ∧ ∃ k, lookup (S.step e).2 c = some (text.take k)
      rcases h2 with ⟨rfl, he⟩ | ⟨hS, hd, k, hk⟩
      · have he : e = d := he
        subst he
        rw [hk0]
        refine ⟨Or.inl hsav, fun q hq => ?_, 0, ?_⟩
        · show lookup (writeFile e c []) q = _
          rw [lookup_writeFile, if_neg (fun h => hq h.symm)]
        · show lookup (writeFile e c []) c = _
          rw [lookup_writeFile, if_pos rfl]
          rfl
      · cases S with
        | ret r => exact ⟨Or.inr ⟨r, rfl⟩, hd, k, hk⟩
        | read q kk =>
          rcases hS with h | ⟨r, h⟩
          · exact h.elim
          · cases h
        | write q t kk =>
          obtain ⟨rfl, ⟨k', rfl⟩, hS'⟩ : Saver c text (.write q t kk) := by
            rcases hS with h | ⟨r, h⟩
            · exact h
            · cases h
          refine ⟨hS'.imp id fun h => h.1, fun q' hq' => ?_, k', ?_⟩
          · show lookup (writeFile e q (text.take k')) q' = _
            rw [lookup_writeFile, if_neg (fun h => hq' h.symm)]
            exact hd q' hq'
          · show lookup (writeFile e q (text.take k')) q = _
            rw [lookup_writeFile, if_pos rfl]

/-- Schedules of two processes that do not touch each other's files: the first of them and the files the second does not write. -/
theorem first_of_two {ρ : Type} (p S : Prog ρ) (e : Files) (hind : Independent [p, S] e) (σ : List Nat) (r : ρ)
    (hr : ((⟨[p, S], e⟩ : Sys ρ).exec σ).procs[0]? = some (.ret r)) :
    r = (p.run e).1 ∧ ∀ q, ¬ WritesAlone S e q → lookup ((⟨[p, S], e⟩ : Sys ρ).exec σ).disk q = lookup (p.run e).2 q := by
  obtain ⟨h1, h2⟩ := isolation [p, S] e hind σ
  obtain ⟨a1, a2⟩ := h1 0 p rfl
  rw [hr] at a1
  obtain ⟨g1, g2⟩ := alone_done p e _ r (Option.some.inj a1).symm
  refine ⟨g1, fun q hq => ?_⟩
  by_cases hw : WritesAlone p e q
  · rw [a2 q (Or.inr hw), g2]
  · rw [h2 q fun i x hx => ?_]
    · obtain ⟨N, hN⟩ := alone_ends p e
      have := alone_keeps p e N q
      rw [hN N le_rfl] at this
      exact (this.resolve_right hw).symm
    · match i with
      | 0 => obtain rfl := Option.some.inj hx; exact hw
      | 1 => obtain rfl := Option.some.inj hx; exact hq
      | i + 2 => cases hx

/-- Cut a schedule at the first step of the first process. -/
theorem first_zero (σ : List Nat) (h : 0 ∈ σ) : ∃ σ1 σ2, 0 ∉ σ1 ∧ σ = σ1 ++ 0 :: σ2 := by
  induction σ with
  | nil => cases h
  | cons i rest ih =>
    by_cases hi : i = 0
    · subst hi
      exact ⟨[], rest, List.not_mem_nil, rfl⟩
    · have hm' : 0 ∈ rest := by
        rcases List.mem_cons.mp h with h | h
        · exact absurd h.symm hi
        · exact h
      obtain ⟨a, b, h1, h2⟩ := ih hm'
      exact ⟨i :: a, b, by simp [h1, Ne.symm hi], by rw [h2]; rfl⟩

/-- A sweep after it has opened the template. -/
def sweepBody (M : Machine α) (jsonFile folder : String) (first last step : Int) : Option (List Char) → Prog (Option (Except Err (List String)))
  | none => .ret (some (.error .fileNotFound))
  | some text => match jsonLoad M.F.float text with
    | .error e => .ret (some (.error e))
    | .ok base => match sweepRates first last step with
      | .error e => .ret (some (.error e))
      | .ok rates => sweepLoopProg M.grid M.fuel M.F M.numText M.flush base (workingFile jsonFile folder) folder rates []

theorem sweep_body (M : Machine α) (jsonFile folder : String) (first last step : Int) :
    Job.prog M (.sweep jsonFile folder first last step) = .read (M.F.canon jsonFile) (sweepBody M jsonFile folder first last step) := by
  show sweepProg _ _ _ _ _ _ _ _ _ _ = _
  unfold sweepProg
  congr 1

/-- **C111**. The same for the template of a sweep, which is opened once: a sweep that has ended has ended with a ValueError and changed
    nothing, or as on the old template, or as on the new one. -/
theorem C111_saved_during_a_sweep (M : Machine α) (jsonFile folder : String) (first last step : Int) (d : Files) (text : List Char) (l : List (String × Json α))
    (hnew : JsonText M.F.float (universal text) (.obj l))
    (hapart : ∀ data, data = .obj l ∨ Holds M.F d jsonFile data → SweepApart M.F jsonFile folder data ∧ NumsAll (Readable M.F.float M.numText) data)
    (σ : List Nat) (r : Option (Except Err (List String)))
    (hr : ((⟨[Job.prog M (.sweep jsonFile folder first last step), saveProg M.flush (M.F.canon jsonFile) text], d⟩ : Sys _).exec σ).procs[0]? = some (.ret r)) :
    let c := M.F.canon jsonFile
    let s := (⟨[Job.prog M (.sweep jsonFile folder first last step), saveProg M.flush c text], d⟩ : Sys _).exec σ
    (r = some (.error .valueError) ∧ SameBut c s.disk d) ∨
    ∃ d0, (d0 = d ∨ d0 = writeFile d c text) ∧ r = (Job.result M d0 (.sweep jsonFile folder first last step)).map Prod.fst ∧
      ∀ o d', Job.result M d0 (.sweep jsonFile folder first last step) = some (o, d') → SameBut c s.disk d' := by
  intro c s
  have hj : jsonLoad M.F.float text = .ok (.obj l) := (jsonLoads_iff M.F.float _ _).mpr hnew
  -- it is enough to compare with the process on its own
  have hsuff : ∀ d0, r = ((Job.prog M (.sweep jsonFile folder first last step)).run d0).1 →
      SameBut c s.disk ((Job.prog M (.sweep jsonFile folder first last step)).run d0).2 →
      r = (Job.result M d0 (.sweep jsonFile folder first last step)).map Prod.fst ∧
      ∀ o d', Job.result M d0 (.sweep jsonFile folder first last step) = some (o, d') → SameBut c s.disk d' := by
    intro d0 h1 h2
    obtain ⟨d', k1, k2⟩ := job_solo M (.sweep jsonFile folder first last step) d0
    constructor
    · rw [k2, h1, Option.map_map]
      cases ((Job.prog M (.sweep jsonFile folder first last step)).run d0).1 <;> rfl
    · intro o d'' ho q hq
      rw [h2 q hq, k1 q]
      rw [k2] at ho
      cases hv : ((Job.prog M (.sweep jsonFile folder first last step)).run d0).1 with
      | none => rw [hv] at ho; cases ho
      | some v =>
        rw [hv] at ho
        obtain ⟨_, rfl⟩ := Prod.mk.inj (Option.some.inj ho)
        rfl
  -- the first step of the sweep
  have hmem : 0 ∈ σ := by
    by_contra hno
    obtain ⟨S, h1, _⟩ := saver_first (Job.prog M (.sweep jsonFile folder first last step)) M.flush c text (some (.ok [])) d σ hno
    have h1 : s.procs = [_, S] := h1
    change s.procs[0]? = _ at hr
    rw [h1] at hr
    have hr := Option.some.inj hr
    cases hr
  obtain ⟨σ1, σ2, hσ1, hσ⟩ := first_zero σ hmem
  obtain ⟨S, hprocs, hS⟩ := saver_first (Job.prog M (.sweep jsonFile folder first last step)) M.flush c text (some (.ok [])) d σ1 hσ1
  have hs : s = ((⟨[Job.prog M (.sweep jsonFile folder first last step), .save M.flush c text (.ret (some (.ok [])))], d⟩ : Sys _).exec σ1).exec (0 :: σ2) := by
    rw [← exec_append, ← hσ]
    rfl
  change s.procs[0]? = _ at hr
  generalize (⟨[Job.prog M (.sweep jsonFile folder first last step), .save M.flush c text (.ret (some (.ok [])))], d⟩ : Sys _).exec σ1 = s1 at *
  obtain ⟨procs, e1⟩ := s1
  have hprocs : procs = [_, S] := hprocs
  subst hprocs
  have hs : s = (⟨[(sweepBody M jsonFile folder first last step (lookup e1 c)), S], e1⟩ : Sys _).exec σ2 := hs
  have htouch : ∀ q, ¬ ReadsAlone S e1 q ∧ (WritesAlone S e1 q → q = c) := by
    rcases hS with ⟨rfl, _⟩ | ⟨h, _⟩
    · obtain ⟨k0, hk0, hsav⟩ := saver_save M.flush c text (some (Except.ok [] : Except Err (List String)))
      rw [hk0]
      intro q
      refine ⟨?_, fun hw => ?_⟩
      · rintro ⟨n, hn⟩
        cases n with
        | zero => cases hn
        | succ n =>
          rw [alone_succ] at hn
          exact (saver_touches (Or.inl hsav) _ q).1 ⟨n, hn⟩
      · rcases (writes_write _ _ _ _ _).mp hw with h | h
        · exact h.symm
        · exact (saver_touches (Or.inl hsav) _ q).2 h
    · exact saver_touches h e1
  rw [hs] at hr
  -- what follows the reading of the template
  have hbody : ∀ data, (data = .obj l ∨ Holds M.F d jsonFile data) → ∀ t, lookup e1 c = some t → jsonLoad M.F.float t = .ok data →
      Fresh (· = c) (sweepBody M jsonFile folder first last step (lookup e1 c)) e1 ∧
      ¬ WritesAlone (sweepBody M jsonFile folder first last step (lookup e1 c)) e1 c := by
    intro data hdata t ht hload
    obtain ⟨⟨ha1, ha2, ha3⟩, hnums⟩ := hapart data hdata
    have hholds : Holds M.F e1 jsonFile data := ⟨t, ht, (jsonLoads_iff M.F.float _ _).mp hload⟩
    refine ⟨?_, fun hw => ?_⟩
    · rw [ht]
      unfold sweepBody
      dsimp only
      rw [hload]
      dsimp only
      split
      · trivial
      · exact sweepLoop_fresh M data _ _ (C79_loaded_keys_distinct M.F.float t data hload) hnums
          (by rintro q rfl path hp e; exact ha1 path hp e.symm) _ _ _
    · have hw' : WritesAlone (Job.prog M (.sweep jsonFile folder first last step)) e1 c := (writes_read _ _ _ _).mpr hw
      have huniq : ∀ tpl, Holds M.F e1 jsonFile tpl → tpl = data := by
        rintro tpl ⟨t', ht', hj'⟩
        rw [ht] at ht'
        obtain rfl := Option.some.inj ht'
        have := (jsonLoads_iff M.F.float _ _).mpr hj'
        exact Except.ok.inj (this.symm.trans hload)
      obtain ⟨tpl, rates, ra, h1, _, _, h2⟩ := (C107_sweep_touches M jsonFile folder first last step e1
        (fun tpl h => huniq tpl h ▸ hnums) c).2 hw'
      obtain rfl := huniq tpl h1
      rcases h2 with h2 | ⟨lava, hl, h2⟩
      · exact ha2 h2.symm
      · exact ha3 ra lava hl h2.symm
  have hrun : ∀ d0, SameBut c e1 d0 → sweepBody M jsonFile folder first last step (lookup d0 c) = sweepBody M jsonFile folder first last step (lookup e1 c) →
      Fresh (· = c) (sweepBody M jsonFile folder first last step (lookup e1 c)) e1 →
      ¬ WritesAlone (sweepBody M jsonFile folder first last step (lookup e1 c)) e1 c →
      r = ((Job.prog M (.sweep jsonFile folder first last step)).run d0).1 ∧
      SameBut c s.disk ((Job.prog M (.sweep jsonFile folder first last step)).run d0).2 := by
    intro d0 hd0 hsame hfresh hnw
    have hrd : (Job.prog M (.sweep jsonFile folder first last step)).run d0 = (sweepBody M jsonFile folder first last step (lookup e1 c)).run d0 := by
      rw [← hsame]
      rfl
    rw [hrd, hs]
    generalize sweepBody M jsonFile folder first last step (lookup e1 c) = L at *
    have hind : Independent [L, S] e1 := by
      intro i j p p' hij hi hj q hw
      match i, j with
      | 0, 0 => exact absurd rfl hij
      | 1, 1 => exact absurd rfl hij
      | i + 2, _ => cases hi
      | _, j + 2 => cases hj
      | 0, 1 =>
        obtain rfl := Option.some.inj hi
        obtain rfl := Option.some.inj hj
        exact ⟨(htouch q).1, fun h => hnw ((htouch q).2 h ▸ hw)⟩
      | 1, 0 =>
        obtain rfl := Option.some.inj hi
        obtain rfl := Option.some.inj hj
        obtain rfl := (htouch q).2 hw
        exact ⟨hfresh.noReads (by rintro q rfl; exact hnw) c rfl, hnw⟩
    obtain ⟨g1, g2⟩ := first_of_two L S e1 hind σ2 r hr
    obtain ⟨k1, k2⟩ := hfresh.run (e := d0) fun q => by
      by_cases hq : q = c
      · exact Or.inr hq
      · exact Or.inl (hd0 q hq).symm
    refine ⟨g1.trans k1.symm, fun q hq => ?_⟩
    rw [g2 q fun h => hq ((htouch q).2 h)]
    exact ((k2 q).resolve_right fun h => hq h.1).symm
  have hret : ∀ v, sweepBody M jsonFile folder first last step (lookup e1 c) = .ret v →
      Fresh (· = c) (sweepBody M jsonFile folder first last step (lookup e1 c)) e1 ∧
      ¬ WritesAlone (sweepBody M jsonFile folder first last step (lookup e1 c)) e1 c := by
    intro v hv
    rw [hv]
    exact ⟨trivial, writes_ret v e1 c⟩
  rcases hS with ⟨_, he⟩ | ⟨_, hd, k, hk⟩
  · -- the file has not been touched yet
    have he : e1 = d := he
    subst he
    right
    refine ⟨e1, Or.inl rfl, ?_⟩
    have hf : Fresh (· = c) (sweepBody M jsonFile folder first last step (lookup e1 c)) e1 ∧
        ¬ WritesAlone (sweepBody M jsonFile folder first last step (lookup e1 c)) e1 c := by
      cases hl0 : lookup e1 c with
      | none => exact hl0 ▸ hret _ (by rw [hl0]; rfl)
      | some t =>
        cases hload : jsonLoad M.F.float t with
        | error x => exact hl0 ▸ hret (some (.error x)) (by rw [hl0]; unfold sweepBody; dsimp only; rw [hload])
        | ok data => exact hl0 ▸ hbody data (Or.inr ⟨t, hl0, (jsonLoads_iff M.F.float _ _).mp hload⟩) t hl0 hload
    obtain ⟨a, b⟩ := hrun e1 (fun _ _ => rfl) rfl hf.1 hf.2
    exact hsuff e1 a b
  · have hd : SameBut c e1 d := hd
    have hk : lookup e1 c = some (text.take k) := hk
    rcases C102_cut_configuration M.F.float text l hj k with hcut | hcut
    · left
      have hv : sweepBody M jsonFile folder first last step (lookup e1 c) = .ret (some (.error .valueError)) := by
        rw [hk]
        unfold sweepBody
        dsimp only
        rw [hcut]
      obtain ⟨h1, h2⟩ := hret _ hv
      obtain ⟨a, b⟩ := hrun e1 (fun _ _ => rfl) rfl h1 h2
      have hrd : (Job.prog M (.sweep jsonFile folder first last step)).run e1 = (sweepBody M jsonFile folder first last step (lookup e1 c)).run e1 := rfl
      rw [hrd, hv] at a b
      exact ⟨a, fun q hq => (b q hq).trans (hd q hq)⟩
    · right
      refine ⟨writeFile d c text, Or.inr rfl, ?_⟩
      obtain ⟨h1, h2⟩ := hbody _ (Or.inl rfl) _ hk hcut
      have hsame : SameBut c e1 (writeFile d c text) := by
        intro q hq
        rw [lookup_writeFile, if_neg (fun h => hq h.symm)]
        exact hd q hq
      obtain ⟨a, b⟩ := hrun _ hsame (by
        rw [lookup_writeFile, if_pos rfl, hk]
        unfold sweepBody
        dsimp only
        rw [hj, hcut]) h1 h2
      exact hsuff _ a b

/-- **C111**: the ValueError does happen, whatever the old and the new text are: when the run, or the sweep, opens the file just after
    the saving program has opened it for writing. -/
theorem C111_caught_empty (M : Machine α) (jsonFile folder : String) (first last step : Int) (d : Files) (text : List Char) :
    ((⟨[Job.prog M (.run jsonFile folder), saveProg M.flush (M.F.canon jsonFile) text], d⟩ : Sys _).exec [1, 0]).procs[0]? =
      some (.ret (some (.error .valueError))) ∧
    ((⟨[Job.prog M (.sweep jsonFile folder first last step), saveProg M.flush (M.F.canon jsonFile) text], d⟩ : Sys _).exec [1, 0]).procs[0]? =
      some (.ret (some (.error .valueError))) := by
  obtain ⟨k0, hk0, _⟩ := saver_save M.flush (M.F.canon jsonFile) text (some (Except.ok [] : Except Err (List String)))
  have hempty : jsonLoad M.F.float [] = .error .valueError := rfl
  unfold saveProg
  rw [hk0]
  have hl : lookup (writeFile d (M.F.canon jsonFile) []) (M.F.canon jsonFile) = some [] := by rw [lookup_writeFile, if_pos rfl]
  constructor
  · show some (((Job.prog M (.run jsonFile folder)).step (writeFile d (M.F.canon jsonFile) [])).1) = _
    obtain ⟨k, hk, hv⟩ : ∃ k, Job.prog M (.run jsonFile folder) = .read (M.F.canon jsonFile) k ∧ k (some []) = .ret (some (.error .valueError)) := ⟨_, rfl, rfl⟩
    rw [hk]
    show some (k (lookup (writeFile d (M.F.canon jsonFile) []) (M.F.canon jsonFile))) = _
    rw [hl, hv]
  · show some (sweepBody M jsonFile folder first last step (lookup (writeFile d (M.F.canon jsonFile) []) (M.F.canon jsonFile))) = _
    rw [hl]
    unfold sweepBody
    dsimp only
    rw [hempty]

end PyFlowGo
