import Verif.Model.SweepText
import Verif.Spec.SweepText
import Verif.Props.SweepFull
import Verif.Props.RunTextMore
/-
  C89: a sweep on the texts of the files.
-/
set_option linter.unusedSectionVars false
namespace PyFlowGo
open Spec
variable {α : Type} [Add α] [Sub α] [Mul α] [Neg α] [OfScientific α] [PyNum α]

/-- What a successful run on texts added to the disk. -/
theorem runText_added (F : TextFormat α) (grid : List α) (fuel : Nat) (jsonFile folder : String)
    (disk disk' : List (String × List Char)) (text : List Char) (data : Json α)
    (hl : lookup disk (F.canon jsonFile) = some text) (hd : JsonText F.float (universal text) data)
    (h : runTextOn grid fuel F jsonFile folder disk = some (.ok (), disk')) (rate lava : Json α)
    (hr : TopEntry data "effusion_rate_init" rate) (hv : TopEntry data "lava_name" lava) :
    disk' = disk ∨ ∃ out, disk' =
      (F.canon (resultFileName folder (lava.show (textEnv F disk)) (rate.show (textEnv F disk))), out) :: disk := by
  have hj : jsonLoad F.float text = .ok data := (jsonLoads_iff F.float _ data).mpr hd
  unfold runTextOn at h
  rw [hl] at h
  dsimp only at h
  rw [hj] at h
  dsimp only at h
  cases hrun : runOn grid fuel (textEnv F disk) jsonFile folder (newRunner ⟨[(F.canon jsonFile, data)], [], []⟩) with
  | none => rw [hrun] at h; cases h
  | some q =>
    obtain ⟨res, p⟩ := q
    rw [hrun] at h
    dsimp only at h
    rw [Option.some.injEq, Prod.mk.injEq] at h
    obtain ⟨rfl, hdisk⟩ := h
    obtain ⟨_, d, rate', lava', e1, e2, e3, e4⟩ := run_wrote _ _ _ _ _ _ _ hrun
    have : d = data := by
      have : lookup [(F.canon jsonFile, data)] (F.canon jsonFile) = some d := e1
      rw [lookup_cons_eq, if_pos rfl] at this
      exact (Option.some.inj this).symm
    subst this
    rw [topEntry_unique e2 hr, topEntry_unique e3 hv] at e4
    rcases e4 with ⟨_, e⟩ | ⟨_, t, _, e⟩
    · left
      rw [← hdisk, e]; rfl
    · right
      refine ⟨stored F.windows (t.text F.str), ?_⟩
      rw [← hdisk, e]; rfl

theorem runText_entries (F : TextFormat α) (grid : List α) (fuel : Nat) (jsonFile folder : String)
    (disk disk' : List (String × List Char)) (text : List Char) (data : Json α)
    (hl : lookup disk (F.canon jsonFile) = some text) (hd : JsonText F.float (universal text) data)
    (h : runTextOn grid fuel F jsonFile folder disk = some (.ok (), disk')) : ∃ lava, TopEntry data "lava_name" lava := by
  have hj : jsonLoad F.float text = .ok data := (jsonLoads_iff F.float _ data).mpr hd
  unfold runTextOn at h
  rw [hl] at h
  dsimp only at h
  rw [hj] at h
  dsimp only at h
  cases hrun : runOn grid fuel (textEnv F disk) jsonFile folder (newRunner ⟨[(F.canon jsonFile, data)], [], []⟩) with
  | none => rw [hrun] at h; cases h
  | some q =>
    obtain ⟨res, p⟩ := q
    rw [hrun] at h
    dsimp only at h
    rw [Option.some.injEq, Prod.mk.injEq] at h
    obtain ⟨rfl, hdisk⟩ := h
    obtain ⟨_, d, rate', lava', e1, e2, e3, e4⟩ := run_wrote _ _ _ _ _ _ _ hrun
    have : d = data := by
      have : lookup [(F.canon jsonFile, data)] (F.canon jsonFile) = some d := e1
      rw [lookup_cons_eq, if_pos rfl] at this
      exact (Option.some.inj this).symm
    subst this
    exact ⟨_, e3⟩

theorem mayRead_withRate {template data : Json α} {r : Int} (h : WithRate template data r) (path : String) :
    MayRead data path ↔ MayRead template path := by
  unfold MayRead
  rw [h.2 "slope_file" (by decide), h.2 "slope_file" (by decide)]

theorem sweepText_loop (grid : List α) (fuel : Nat) (F : TextFormat α) (sn : α → List Char) (template : Json α)
    (working folder : String) (hdist : DistinctKeys template) (hnums : NumsAll (Readable F.float sn) template)
    (disk0 : List (String × List Char)) (all : List Int)
    (hsafe : ∀ path, MayRead template path → F.canon path ≠ F.canon working ∧
      ∀ lava, TopEntry template "lava_name" lava → ∀ r ∈ all,
        F.canon path ≠ F.canon (resultFileName folder (lava.show (textEnv F disk0)) (toString r))) :
    ∀ (rates : List Int) (names names' : List String) (disk disk' : List (String × List Char)),
    (∀ r ∈ rates, r ∈ all) →
    (∀ path, MayRead template path → lookup disk (F.canon path) = lookup disk0 (F.canon path)) →
    sweepTextLoop grid fuel F sn template working folder rates names disk = some (.ok names', disk') →
    ∃ (lava : Json α) (runs : List (TextRun α)), (rates ≠ [] → TopEntry template "lava_name" lava) ∧
      names' = names ++ rates.map (fun r => resultFileName folder (lava.show (textEnv F disk0)) (toString r)) ∧
      List.Forall₂ (StandAlone grid fuel F template working folder disk0) rates runs ∧
      List.Forall₂ (fun r (o : TextRun α) => o.files = [] ∨ ∃ out,
        o.files = [(F.canon (resultFileName folder (lava.show (textEnv F disk0)) (toString r)), out)]) rates runs ∧
      disk' = runs.reverse.flatMap (fun o => o.files ++ [(F.canon working, o.configText)]) ++ disk := by
  intro rates
  induction rates with
  | nil =>
    intro names names' disk disk' _ _ h
    unfold sweepTextLoop at h
    simp only [Option.some.injEq, Prod.mk.injEq, Except.ok.injEq] at h
    obtain ⟨rfl, rfl⟩ := h
    exact ⟨.null, [], by simp, by simp, .nil, .nil, by simp⟩
  | cons r rest ih =>
    intro names names' disk disk' hall hsame h
    unfold sweepTextLoop at h
    split at h
    · simp at h
    rename_i data hset
    obtain ⟨hs1, hs2⟩ := set_spec _ _ _ _ hset
    have hrate : WithRate template data r := ⟨hs1, hs2⟩
    have hjd : DistinctKeys data := set_distinct hset hdist (by simp [DistinctKeys])
    have hjn : NumsAll (Readable F.float sn) data := set_nums hset hnums (by simp [NumsAll])
    have hload : JsonText F.float (universal (stored F.windows (jsonDump sn data))) data :=
      (jsonLoads_iff F.float _ data).mp (C79_round_trip F.float sn data hjd hjn F.windows)
    have hl : lookup (writeFile disk (F.canon working) (stored F.windows (jsonDump sn data))) (F.canon working) =
        some (stored F.windows (jsonDump sn data)) := by
      rw [writeFile, lookup_cons_eq, if_pos rfl]
    split at h
    · cases h
    · simp at h
    rename_i u disk2 hrun
    split at h
    · simp at h
    rename_i nm hnm
    rw [get_ok_iff] at hnm
    have hnm' : TopEntry template "lava_name" nm := (hs2 _ (by decide) _).mp hnm
    have hadd := runText_added F grid fuel working folder _ disk2 _ data hl hload hrun _ nm hs1 hnm
    have hnew : ∃ files, disk2 = files ++ writeFile disk (F.canon working) (stored F.windows (jsonDump sn data)) ∧
        (files = [] ∨ ∃ out, files = [(F.canon (resultFileName folder (nm.show (textEnv F disk0)) (toString r)), out)]) := by
      rcases hadd with e | ⟨out, e⟩
      · exact ⟨[], e, Or.inl rfl⟩
      · exact ⟨_, e, Or.inr ⟨out, rfl⟩⟩
    obtain ⟨files, hd2, hfiles⟩ := hnew
    have hsame1 : ∀ path, MayRead template path →
        lookup (writeFile disk (F.canon working) (stored F.windows (jsonDump sn data))) (F.canon path) = lookup disk0 (F.canon path) := by
      intro path hp
      rw [writeFile, lookup_cons_eq, if_neg (fun e => (hsafe path hp).1 e.symm)]
      exact hsame path hp
    have hsame2 : ∀ path, MayRead template path → lookup disk2 (F.canon path) = lookup disk0 (F.canon path) := by
      intro path hp
      rw [hd2]
      rcases hfiles with rfl | ⟨out, rfl⟩
      · exact hsame1 path hp
      · rw [List.singleton_append, lookup_cons_eq, if_neg (fun e => (hsafe path hp).2 nm hnm' r (hall r (by simp)) e.symm)]
        exact hsame1 path hp
    obtain ⟨lava, runs, h1, h2, h3, h4, h5⟩ := ih _ _ _ _ (fun q hq => hall q (by simp [hq])) hsame2 h
    have hlv : rest ≠ [] → lava = nm := fun hr => topEntry_unique (h1 hr) hnm'
    have hone : StandAlone grid fuel F template working folder disk0 r ⟨data, stored F.windows (jsonDump sn data), files⟩ := by
      refine ⟨hrate, hload, ?_⟩
      intro other text ho ht hp
      obtain ⟨o, a1, a2, _⟩ := C82_inputs_determine_result F grid fuel working folder _ other _ text data hl ho hload ht
        (fun path hm => by
          rw [mayRead_withRate hrate] at hm
          rw [hsame1 path hm, hp path hm])
      rw [a1] at hrun
      obtain ⟨⟨r', new⟩, hn, he⟩ := Option.map_eq_some_iff.mp hrun
      rw [Prod.mk.injEq] at he
      obtain ⟨rfl, he⟩ := he
      rw [a2, hn, Option.map_some]
      have : new = files := List.append_cancel_right (he.trans hd2)
      rw [this]
    refine ⟨nm, ⟨data, stored F.windows (jsonDump sn data), files⟩ :: runs, fun _ => hnm', ?_, .cons hone h3, ?_, ?_⟩
    · rw [h2, List.map_cons, List.append_assoc]
      congr 1
      by_cases hr : rest = []
      · rw [hr]; rfl
      · rw [hlv hr]; rfl
    · refine .cons hfiles ?_
      by_cases hr : rest = []
      · subst hr; cases h4; exact .nil
      · rw [← hlv hr]; exact h4
    · rw [h5, hd2, List.reverse_cons, List.flatMap_append]
      simp [writeFile]

/-- **C89**. A sweep on the disk. The template is a JSON text whose numbers can be written and read back; no profile it reads is
    the working copy or a result file of the sweep. If the sweep ends normally, the disk afterwards is the disk before
    plus, for every rate in order, a working copy -- a JSON text for the template with that rate and no other change -- and
    what a run on its own would have written for that configuration: nothing, or one file under the name the sweep returns
    for the rate. -/
theorem C89_sweep_on_texts (grid : List α) (fuel : Nat) (F : TextFormat α) (sn : α → List Char) (jsonFile folder : String)
    (first last step : Int) (disk disk' : List (String × List Char)) (text : List Char) (template : Json α)
    (hl : lookup disk (F.canon jsonFile) = some text) (ht : JsonText F.float (universal text) template)
    (hnums : NumsAll (Readable F.float sn) template)
    (hsafe : ∀ path, MayRead template path → F.canon path ≠ F.canon (workingFile jsonFile folder) ∧
      ∀ lava, TopEntry template "lava_name" lava → ∀ r : Int,
        F.canon path ≠ F.canon (resultFileName folder (lava.show (textEnv F disk)) (toString r)))
    (names : List String) (h : sweepText grid fuel F sn jsonFile folder first last step disk = some (.ok names, disk')) :
    ∃ (rates : List Int) (lava : Json α) (runs : List (TextRun α)), sweepRates first last step = .ok rates ∧
      (rates ≠ [] → TopEntry template "lava_name" lava) ∧
      names = rates.map (fun r => resultFileName folder (lava.show (textEnv F disk)) (toString r)) ∧
      List.Forall₂ (StandAlone grid fuel F template (workingFile jsonFile folder) folder disk) rates runs ∧
      List.Forall₂ (fun name (o : TextRun α) => o.files = [] ∨ ∃ out, o.files = [(F.canon name, out)]) names runs ∧
      disk' = runs.reverse.flatMap (fun o => o.files ++ [(F.canon (workingFile jsonFile folder), o.configText)]) ++ disk := by
  have hj : jsonLoad F.float text = .ok template := (jsonLoads_iff F.float _ template).mpr ht
  unfold sweepText at h
  rw [hl] at h
  dsimp only at h
  rw [hj] at h
  dsimp only at h
  split at h
  · simp at h
  rename_i rates hr
  obtain ⟨lava, runs, h1, h2, h3, h4, h5⟩ := sweepText_loop grid fuel F sn template (workingFile jsonFile folder) folder
    (C79_loaded_keys_distinct F.float text template hj) hnums disk rates
    (fun path hp => ⟨(hsafe path hp).1, fun lv hlv r _ => (hsafe path hp).2 lv hlv r⟩) rates [] names disk disk' (fun _ h => h)
    (fun _ _ => rfl) h
  rw [List.nil_append] at h2
  refine ⟨rates, lava, runs, hr, h1, h2, h3, ?_, h5⟩
  rw [h2, List.forall₂_map_left_iff]
  exact h4

theorem forall₂_both {β γ : Type} {R S : β → γ → Prop} {l : List β} {u : List γ} (h1 : List.Forall₂ R l u)
    (h2 : List.Forall₂ S l u) : List.Forall₂ (fun a b => R a b ∧ S a b) l u := by
  induction h1 with
  | nil => exact .nil
  | cons h _ ih =>
    cases h2 with
    | cons h' t' => exact .cons ⟨h, h'⟩ (ih t')

theorem sweepRates_nodup {first last step : Int} {rates : List Int} (hr : sweepRates first last step = .ok rates) : rates.Nodup := by
  have hp := pyRange_pairwise hr
  by_cases hs : 0 < step
  · exact (hp.1 hs).imp (fun h => ne_of_lt h)
  · have hne : step ≠ 0 := by
      intro e
      rw [(C56_zero_step first last step).mpr e] at hr
      cases hr
    exact (hp.2 (by omega)).imp (fun h => ne_of_gt h)

/-- Looking up one of the result files after the sweep. -/
theorem lookup_runs (working : String) (f : Int → String) (hf : ∀ a b, f a = f b → a = b) (hw : ∀ a, f a ≠ working)
    (disk : List (String × List Char)) :
    ∀ (rates : List Int) (runs : List (TextRun α)), rates.Nodup →
    List.Forall₂ (fun r (o : TextRun α) => o.files = [] ∨ ∃ out, o.files = [(f r, out)]) rates runs →
    (∀ r, r ∉ rates →
      lookup (runs.reverse.flatMap (fun o => o.files ++ [(working, o.configText)]) ++ disk) (f r) = lookup disk (f r)) ∧
    List.Forall₂ (fun r (o : TextRun α) =>
      lookup (runs.reverse.flatMap (fun o => o.files ++ [(working, o.configText)]) ++ disk) (f r) =
        lookup (o.files ++ disk) (f r)) rates runs := by
  intro rates runs hn h
  induction h generalizing disk with
  | nil => exact ⟨fun r _ => rfl, .nil⟩
  | @cons r o rest runs hro htail ih =>
    have hsplit : ((o :: runs).reverse.flatMap fun o => o.files ++ [(working, o.configText)]) ++ disk =
        (runs.reverse.flatMap fun o => o.files ++ [(working, o.configText)]) ++ (o.files ++ (working, o.configText) :: disk) := by
      rw [List.reverse_cons, List.flatMap_append]; simp
    rw [hsplit]
    obtain ⟨hr, hn⟩ := List.nodup_cons.mp hn
    obtain ⟨i1, i2⟩ := ih (o.files ++ (working, o.configText) :: disk) hn
    have hmiss : ∀ q, q ≠ r → lookup (o.files ++ (working, o.configText) :: disk) (f q) = lookup disk (f q) := by
      intro q hq
      rcases hro with e | ⟨out, e⟩
      · rw [e, List.nil_append, lookup_cons_eq, if_neg (fun h => hw q h.symm)]
      · rw [e, List.singleton_append, lookup_cons_eq, if_neg (fun h => hq (hf _ _ h.symm)), lookup_cons_eq,
          if_neg (fun h => hw q h.symm)]
    refine ⟨fun q hq => ?_, .cons ?_ ?_⟩
    · rw [i1 q (fun h => hq (by simp [h])), hmiss q (fun h => hq (by simp [h]))]
    · rw [i1 r hr]
      rcases hro with e | ⟨out, e⟩
      · rw [e, List.nil_append, List.nil_append, lookup_cons_eq, if_neg (fun h => hw r h.symm)]
      · rw [e, List.singleton_append, List.singleton_append, lookup_cons_eq, if_pos rfl, lookup_cons_eq, if_pos rfl]
    · refine (List.forall₂_and_left (p := fun q => q ≠ r) rest runs).mpr ⟨fun q hq e => hr (e ▸ hq), i2⟩ |>.imp ?_
      rintro q p ⟨hq, hp⟩
      rw [hp, lookup_append p.files, hmiss q hq, lookup_append p.files]

/-- **C89**: after the sweep every result file is there, as the run for its rate wrote it (a run that wrote nothing leaves
    the file as it was). Different rates must not be given the same file by links, and the working copy must not be a
    result file. -/
theorem C89_results_on_disk (grid : List α) (fuel : Nat) (F : TextFormat α) (sn : α → List Char) (jsonFile folder : String)
    (first last step : Int) (disk disk' : List (String × List Char)) (text : List Char) (template : Json α)
    (hl : lookup disk (F.canon jsonFile) = some text) (ht : JsonText F.float (universal text) template)
    (hnums : NumsAll (Readable F.float sn) template)
    (hsafe : ∀ path, MayRead template path → F.canon path ≠ F.canon (workingFile jsonFile folder) ∧
      ∀ lava, TopEntry template "lava_name" lava → ∀ r : Int,
        F.canon path ≠ F.canon (resultFileName folder (lava.show (textEnv F disk)) (toString r)))
    (hdistinct : ∀ lava, TopEntry template "lava_name" lava → DistinctFiles (textEnv F disk) folder (lava.show (textEnv F disk)))
    (hwork : ∀ lava, TopEntry template "lava_name" lava → ∀ r : Int,
      F.canon (resultFileName folder (lava.show (textEnv F disk)) (toString r)) ≠ F.canon (workingFile jsonFile folder))
    (names : List String) (h : sweepText grid fuel F sn jsonFile folder first last step disk = some (.ok names, disk')) :
    ∃ (rates : List Int) (runs : List (TextRun α)), sweepRates first last step = .ok rates ∧
      List.Forall₂ (StandAlone grid fuel F template (workingFile jsonFile folder) folder disk) rates runs ∧
      List.Forall₂ (fun name (o : TextRun α) => (o.files = [] ∧ lookup disk' (F.canon name) = lookup disk (F.canon name)) ∨
        ∃ out, o.files = [(F.canon name, out)] ∧ lookup disk' (F.canon name) = some out) names runs := by
  obtain ⟨rates, lava, runs, h1, h2, h3, h4, h5, h6⟩ :=
    C89_sweep_on_texts grid fuel F sn jsonFile folder first last step disk disk' text template hl ht hnums hsafe names h
  refine ⟨rates, runs, h1, h4, ?_⟩
  by_cases hr : rates = []
  · subst hr
    subst h3
    cases h5
    exact .nil
  have hlv := h2 hr
  rw [h3, List.forall₂_map_left_iff] at h5 ⊢
  obtain ⟨_, i2⟩ := lookup_runs (F.canon (workingFile jsonFile folder))
    (fun r => F.canon (resultFileName folder (lava.show (textEnv F disk)) (toString r)))
    (fun a b e => hdistinct lava hlv a b e) (fun a => hwork lava hlv a) disk rates runs (sweepRates_nodup h1) h5
  rw [← h6] at i2
  refine (forall₂_both h5 i2).imp ?_
  rintro r o ⟨e | ⟨out, e⟩, hlk⟩
  · exact Or.inl ⟨e, by rw [hlk, e]; rfl⟩
  · exact Or.inr ⟨out, e, by rw [hlk, e, List.singleton_append, lookup_cons_eq, if_pos rfl]⟩

/-- **C89**: whatever happens, a sweep changes no file but the working copy and the result files of the template's lava. -/
theorem C89_other_files_untouched (grid : List α) (fuel : Nat) (F : TextFormat α) (sn : α → List Char) (jsonFile folder : String)
    (first last step : Int) (disk disk' : List (String × List Char)) (text : List Char) (template : Json α)
    (hl : lookup disk (F.canon jsonFile) = some text) (ht : JsonText F.float (universal text) template)
    (hnums : NumsAll (Readable F.float sn) template) (outcome : Except Err (List String))
    (h : sweepText grid fuel F sn jsonFile folder first last step disk = some (outcome, disk')) (file : String)
    (hw : F.canon file ≠ F.canon (workingFile jsonFile folder))
    (hres : ∀ lava, TopEntry template "lava_name" lava → ∀ r : Int,
      F.canon file ≠ F.canon (resultFileName folder (lava.show (textEnv F disk)) (toString r))) :
    lookup disk' (F.canon file) = lookup disk (F.canon file) := by
  have hj : jsonLoad F.float text = .ok template := (jsonLoads_iff F.float _ template).mpr ht
  have hdist := C79_loaded_keys_distinct F.float text template hj
  unfold sweepText at h
  rw [hl] at h
  dsimp only at h
  rw [hj] at h
  dsimp only at h
  split at h
  · simp only [Option.some.injEq, Prod.mk.injEq] at h; rw [← h.2]
  rename_i rates _
  suffices hloop : ∀ (rates : List Int) (names : List String) (d d' : List (String × List Char)) (o : Except Err (List String)),
      sweepTextLoop grid fuel F sn template (workingFile jsonFile folder) folder rates names d = some (o, d') →
      lookup d' (F.canon file) = lookup d (F.canon file) from hloop _ _ _ _ _ h
  intro rates
  induction rates with
  | nil =>
    intro names d d' o h
    unfold sweepTextLoop at h
    simp only [Option.some.injEq, Prod.mk.injEq] at h
    rw [← h.2]
  | cons r rest ih =>
    intro names d d' o h
    unfold sweepTextLoop at h
    split at h
    · simp only [Option.some.injEq, Prod.mk.injEq] at h; rw [← h.2]
    rename_i data hset
    obtain ⟨hs1, hs2⟩ := set_spec _ _ _ _ hset
    have hload : JsonText F.float (universal (stored F.windows (jsonDump sn data))) data :=
      (jsonLoads_iff F.float _ data).mp (C79_round_trip F.float sn data (set_distinct hset hdist (by simp [DistinctKeys]))
        (set_nums hset hnums (by simp [NumsAll])) F.windows)
    have hlk : lookup (writeFile d (F.canon (workingFile jsonFile folder)) (stored F.windows (jsonDump sn data)))
        (F.canon (workingFile jsonFile folder)) = some (stored F.windows (jsonDump sn data)) := by
      rw [writeFile, lookup_cons_eq, if_pos rfl]
    have hkeep : lookup (writeFile d (F.canon (workingFile jsonFile folder)) (stored F.windows (jsonDump sn data))) (F.canon file) =
        lookup d (F.canon file) := by rw [writeFile, lookup_cons_eq, if_neg (fun e => hw e.symm)]
    split at h
    · cases h
    · rename_i e disk2 hrun
      simp only [Option.some.injEq, Prod.mk.injEq] at h
      rw [← h.2]
      rcases C82_disk_grows_by_one_file F grid fuel _ folder _ disk2 _ hrun with e1 | ⟨e1, _⟩
      · rw [e1]; exact hkeep
      · cases e1
    · rename_i u disk2 hrun
      obtain ⟨lava, hlava⟩ := runText_entries F grid fuel _ folder _ disk2 _ data hlk hload hrun
      have hk2 : lookup disk2 (F.canon file) = lookup d (F.canon file) := by
        rcases runText_added F grid fuel _ folder _ disk2 _ data hlk hload hrun _ lava hs1 hlava with e | ⟨out, e⟩
        · rw [e]; exact hkeep
        · rw [e, lookup_cons_eq, if_neg (fun e => hres lava ((hs2 _ (by decide) _).mp hlava) r e.symm)]
          exact hkeep
      split at h
      · simp only [Option.some.injEq, Prod.mk.injEq] at h
        rw [← h.2]; exact hk2
      · rw [ih _ _ _ _ h, hk2]

/-- **C89**: in particular the template keeps its text unless the results folder is its own folder. -/
theorem C89_template_kept (grid : List α) (fuel : Nat) (F : TextFormat α) (sn : α → List Char) (jsonFile folder : String)
    (first last step : Int) (disk disk' : List (String × List Char)) (text : List Char) (template : Json α)
    (hl : lookup disk (F.canon jsonFile) = some text) (ht : JsonText F.float (universal text) template)
    (hnums : NumsAll (Readable F.float sn) template) (outcome : Except Err (List String))
    (h : sweepText grid fuel F sn jsonFile folder first last step disk = some (outcome, disk'))
    (hw : F.canon jsonFile ≠ F.canon (workingFile jsonFile folder))
    (hres : ∀ lava, TopEntry template "lava_name" lava → ∀ r : Int,
      F.canon jsonFile ≠ F.canon (resultFileName folder (lava.show (textEnv F disk)) (toString r))) :
    lookup disk' (F.canon jsonFile) = some text := by
  rw [C89_other_files_untouched grid fuel F sn jsonFile folder first last step disk disk' text template hl ht hnums outcome h
    jsonFile hw hres, hl]

end PyFlowGo
