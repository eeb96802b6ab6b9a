import Verif.Spec.SweepFullText
import Verif.Props.SweepText
import Verif.Props.RunOutsDisk
import Verif.Props.PlotTextMore
/-
  C92: a complete sweep on the texts of the files.
-/
set_option linter.unusedSectionVars false
namespace PyFlowGo
open Spec

theorem show_disk (F : TextFormat ℝ) (d d' : List (String × List Char)) (v : Json ℝ) : v.show (textEnv F d) = v.show (textEnv F d') := by
  unfold textEnv Json.show
  cases v <;> rfl

theorem forall₂_mem_right {β γ : Type} {R : β → γ → Prop} {l : List β} {u : List γ} (h : List.Forall₂ R l u) (y : γ) (hy : y ∈ u) :
    ∃ x ∈ l, R x y := by
  induction h with
  | nil => simp at hy
  | @cons a b l u hab _ ih =>
    rcases List.mem_cons.mp hy with rfl | hy
    · exact ⟨a, by simp, hab⟩
    · obtain ⟨x, hx, hr⟩ := ih hy
      exact ⟨x, List.mem_cons_of_mem _ hx, hr⟩

/-- One entry per rate, from lists that go along with the rates. -/
theorem collect_rates {R : Int → TextRun ℝ → Prop} {S : Int → List Char × PlotCurves ℝ → Prop} {T : Int → RunOut ℝ → Prop}
    {Q : RateResult → Prop} (hQ : ∀ r o lc l, R r o → S r lc → T r l → ∃ text, Q ⟨r, o, text, lc.1, lc.2, l⟩)
    {rates : List Int} {runs : List (TextRun ℝ)} (h1 : List.Forall₂ R rates runs) {cs : List (List Char × PlotCurves ℝ)}
    (h2 : List.Forall₂ S rates cs) {lines : List (RunOut ℝ)} (h3 : List.Forall₂ T rates lines) :
    ∃ rs : List RateResult, rs.map (·.rate) = rates ∧ rs.map (fun x => (x.label, x.curves)) = cs ∧ rs.map (·.line) = lines ∧ ∀ x ∈ rs, Q x := by
  induction h1 generalizing cs lines with
  | nil =>
    cases h2
    cases h3
    exact ⟨[], rfl, rfl, rfl, by simp⟩
  | @cons r o rates runs hr _ ih =>
    cases h2 with
    | @cons _ lc _ cs hc h2 =>
      cases h3 with
      | @cons _ l _ lines hl h3 =>
        obtain ⟨rs, e1, e2, e3, hrs⟩ := ih h2 h3
        obtain ⟨text, hq⟩ := hQ _ _ _ _ hr hc hl
        refine ⟨⟨r, o, text, lc.1, lc.2, l⟩ :: rs, by simp [e1], by simp [e2], by simp [e3], ?_⟩
        intro x hx
        rcases List.mem_cons.mp hx with rfl | hx
        · exact hq
        · exact hrs x hx

variable (grid : List ℝ) (fuel : Nat) (round : Nat → ℝ → ℝ) (F : TextFormat ℝ) (sn : ℝ → List Char) (jsonFile folder slopeFile : String)
  (first last step : Int) (disk : List (String × List Char)) (text : List Char) (template lava : Json ℝ)

/-- What is known after the runs of the sweep. -/
theorem sweep_facts (hl : lookup disk (F.canon jsonFile) = some text) (ht : JsonText F.float (universal text) template)
    (hnums : NumsAll (Readable F.float sn) template) (hlava : TopEntry template "lava_name" lava)
    (hapart : Apart F template (lava.show (textEnv F disk)) jsonFile folder slopeFile) (names : List String) (disk1 : List (String × List Char))
    (h : sweepText grid fuel F sn jsonFile folder first last step disk = some (.ok names, disk1)) :
    ∃ (rates : List Int) (runs : List (TextRun ℝ)), sweepRates first last step = .ok rates ∧
      names = rates.map (fun r => resultFileName folder (lava.show (textEnv F disk)) (toString r)) ∧
      List.Forall₂ (StandAlone grid fuel F template (workingFile jsonFile folder) folder disk) rates runs ∧
      List.Forall₂ (fun r (o : TextRun ℝ) =>
        (o.files = [] ∧ lookup disk1 (F.canon (resultFileName folder (lava.show (textEnv F disk)) (toString r))) =
          lookup disk (F.canon (resultFileName folder (lava.show (textEnv F disk)) (toString r)))) ∨
        ∃ out, o.files = [(F.canon (resultFileName folder (lava.show (textEnv F disk)) (toString r)), out)] ∧
          lookup disk1 (F.canon (resultFileName folder (lava.show (textEnv F disk)) (toString r))) = some out) rates runs ∧
      (∀ file, F.canon file ≠ F.canon (workingFile jsonFile folder) →
        (∀ r : Int, F.canon file ≠ F.canon (resultFileName folder (lava.show (textEnv F disk)) (toString r))) →
        lookup disk1 (F.canon file) = lookup disk (F.canon file)) ∧
      ∃ text' data', lookup disk1 (F.canon jsonFile) = some text' ∧ JsonText F.float (universal text') data' ∧
        ∀ k, k ≠ "effusion_rate_init" → ∀ x, TopEntry data' k x ↔ TopEntry template k x := by
  have huniq : ∀ lv, TopEntry template "lava_name" lv → lv = lava := fun lv h => topEntry_unique h hlava
  have hother : ∀ file, F.canon file ≠ F.canon (workingFile jsonFile folder) →
        (∀ r : Int, F.canon file ≠ F.canon (resultFileName folder (lava.show (textEnv F disk)) (toString r))) →
        lookup disk1 (F.canon file) = lookup disk (F.canon file) := by
    intro file h1 h2
    refine C89_other_files_untouched grid fuel F sn jsonFile folder first last step disk disk1 text template hl ht hnums _ h file h1 ?_
    intro lv hlv r
    rw [huniq lv hlv]
    exact h2 r
  obtain ⟨rates, lava', runs, h1, h2, h3, h4, h5, h6⟩ :=
    C89_sweep_on_texts grid fuel F sn jsonFile folder first last step disk disk1 text template hl ht hnums (by
      intro path hp
      obtain ⟨a, b⟩ := hapart.inputs path (Or.inl hp)
      refine ⟨a, fun lv hlv r => ?_⟩
      rw [huniq lv hlv]
      exact b r) names h
  have hnames : names = rates.map (fun r => resultFileName folder (lava.show (textEnv F disk)) (toString r)) := by
    by_cases hr : rates = []
    · subst hr; simpa using h3
    · rw [h3, huniq lava' (h2 hr)]
  rw [hnames, List.forall₂_map_left_iff] at h5
  obtain ⟨_, i2⟩ := lookup_runs (F.canon (workingFile jsonFile folder))
    (fun r => F.canon (resultFileName folder (lava.show (textEnv F disk)) (toString r)))
    (fun a b e => hapart.results a b e) (fun a => hapart.working a) disk rates runs (sweepRates_nodup h1) h5
  rw [← h6] at i2
  refine ⟨rates, runs, h1, hnames, h4, ?_, hother, ?_⟩
  · refine (forall₂_both h5 i2).imp ?_
    rintro r o ⟨e | ⟨out, e⟩, hlk⟩
    · exact Or.inl ⟨e, by rw [hlk, e]; rfl⟩
    · exact Or.inr ⟨out, e, by rw [hlk, e, List.singleton_append, lookup_cons_eq, if_pos rfl]⟩
  by_cases hw : F.canon jsonFile = F.canon (workingFile jsonFile folder)
  · rcases List.eq_nil_or_concat runs with hr | ⟨init, o, hr⟩
    · rw [hr] at h6
      simp only [List.reverse_nil, List.flatMap_nil, List.nil_append] at h6
      rw [h6]
      exact ⟨text, template, hl, ht, fun _ _ _ => Iff.rfl⟩
    · rw [List.concat_eq_append] at hr
      obtain ⟨r, hso⟩ : ∃ r, StandAlone grid fuel F template (workingFile jsonFile folder) folder disk r o ∧
          (o.files = [] ∨ ∃ out, o.files = [(F.canon (resultFileName folder (lava.show (textEnv F disk)) (toString r)), out)]) := by
        have := forall₂_both h4 h5
        rw [hr] at this
        obtain ⟨r, _, a⟩ := forall₂_mem_right this o (by simp)
        exact ⟨r, a⟩
      refine ⟨o.configText, o.config, ?_, hso.1.text, hso.1.config.2⟩
      rw [h6, hr, List.reverse_append, List.reverse_singleton, List.singleton_append, List.flatMap_cons, List.append_assoc, List.append_assoc,
        lookup_append, hw]
      have hnone : lookup o.files (F.canon (workingFile jsonFile folder)) = none := by
        rcases hso.2 with e | ⟨out, e⟩
        · rw [e]; rfl
        · rw [e, lookup_cons_eq, if_neg (hapart.working r)]; rfl
      rw [hnone, Option.none_or, List.singleton_append, lookup_cons_eq, if_pos rfl]
  · refine ⟨text, template, ?_, ht, fun _ _ _ => Iff.rfl⟩
    rw [hother jsonFile hw hapart.template, hl]

/-- After the runs: the post-processing ends normally exactly if everything can be drawn and reported. -/
theorem sweepPost_ok (names : List String) (d d' : List (String × List Char)) (figs : SweepFigures ℝ) :
    sweepPost round F jsonFile folder slopeFile names d = (.ok figs, d') ↔
      plotAllText F folder names jsonFile d = .ok (figs.slope, figs.curves) ∧
      ∃ text data nm, lookup d (F.canon jsonFile) = some text ∧ jsonLoad F.float text = .ok data ∧ data.get "lava_name" = .ok nm ∧
        getRunOutsText round F folder names slopeFile (nm.show (textEnv F d)) d = (.ok figs.runOuts, d') := by
  unfold sweepPost
  constructor
  · intro h
    split at h
    · simp at h
    rename_i slope curves hp
    split at h
    · simp at h
    rename_i text hl
    split at h
    · simp at h
    rename_i data hj
    split at h
    · simp at h
    rename_i nm hn
    split at h
    · simp at h
    rename_i ro d2 hg
    rw [Prod.mk.injEq, Except.ok.injEq] at h
    obtain ⟨rfl, rfl⟩ := h
    exact ⟨hp, text, data, nm, hl, hj, hn, hg⟩
  · rintro ⟨hp, text, data, nm, hl, hj, hn, hg⟩
    rw [hp]
    dsimp only
    rw [hl]
    dsimp only
    rw [hj]
    dsimp only
    rw [hn]
    dsimp only
    rw [hg]

/-- **C92**. A complete sweep. When `run_flowgo_effusion_rate_array` ends normally there was at least one rate, and for each rate,
    in order, there is a stand-alone run, whose result is on the disk; its curves, under its label, and its line of the
    run-out table are those of that very result; the figure of the run-outs shows those lines. Nothing else on the disk has
    changed but the working copy and the table. -/
theorem C92_complete_sweep (rd : ℝ → ℝ) (hstr : ∀ c, F.float (F.str c) = some (rd c.value)) (hcr : ∀ c, '\r' ∉ F.str c)
    (hl : lookup disk (F.canon jsonFile) = some text) (ht : JsonText F.float (universal text) template)
    (hnums : NumsAll (Readable F.float sn) template) (hlava : TopEntry template "lava_name" lava)
    (hid : '\r' ∉ (lava.show (textEnv F disk)).toList)
    (hapart : Apart F template (lava.show (textEnv F disk)) jsonFile folder slopeFile) (figs : SweepFigures ℝ) (disk' : List (String × List Char))
    (h : sweepFullText grid fuel round F sn jsonFile folder slopeFile first last step disk = some (.ok figs, disk')) :
    ∃ rs : List RateResult, rs ≠ [] ∧ sweepRates first last step = .ok (rs.map (·.rate)) ∧
      (∀ x ∈ rs, RateDone grid fuel round F template (lava.show (textEnv F disk)) jsonFile folder slopeFile disk disk' x) ∧
      figs.curves = rs.map (fun x => (x.label, x.curves)) ∧
      figs.runOuts = { title := (lava.show (textEnv F disk)).toList, distance := rs.map fun x => rd x.line.runOut,
                       effusionRate := rs.map fun x => rd x.line.effusionRate } ∧
      (∃ s profile, TopEntry template "slope_file" (.str s) ∧ lookup disk (F.canon s) = some profile ∧
        ProfileSamples F.float (dataLines profile) figs.slope) ∧
      (∃ table rows, lookup disk' (F.canon (runOutsPath folder (lava.show (textEnv F disk)))) = some table ∧ dictRead ',' table = .ok rows ∧
        List.Forall₂ (RunOutShown F.float rd (lava.show (textEnv F disk))) (rs.map (·.line)) rows) ∧
      ∀ file, F.canon file ≠ F.canon (workingFile jsonFile folder) → F.canon file ≠ F.canon (runOutsPath folder (lava.show (textEnv F disk))) →
        (∀ r : Int, F.canon file ≠ F.canon (resultFileName folder (lava.show (textEnv F disk)) (toString r))) →
        lookup disk' (F.canon file) = lookup disk (F.canon file) := by
  unfold sweepFullText at h
  split at h
  · simp at h
  · simp at h
  rename_i names disk1 hs
  rw [Option.some.injEq] at h
  obtain ⟨rates, runs, h1, h2, h3, h4, h5, text', data', h6, h7, h8⟩ :=
    sweep_facts grid fuel F sn jsonFile folder slopeFile first last step disk text template lava hl ht hnums hlava hapart names disk1 hs
  obtain ⟨hplot, text2, data2, nm, g1, g2, g3, g4⟩ := (sweepPost_ok round F jsonFile folder slopeFile names disk1 disk' figs).mp h
  rw [h6, Option.some.injEq] at g1
  subst g1
  have hdata : data2 = data' := by
    have := (jsonLoads_iff F.float _ _).mpr h7
    have g2' : jsonLoads F.float (universal text') = .ok data2 := g2
    rw [this] at g2'
    exact (Except.ok.inj g2').symm
  subst hdata
  have hnm : nm = lava := by
    obtain ⟨l, rfl, hlk⟩ := (get_ok_iff _ _ _).mp g3
    exact topEntry_unique ((h8 "lava_name" (by decide) nm).mp ⟨l, rfl, hlk⟩) hlava
  subst hnm
  rw [show_disk F disk1 disk nm] at g4
  generalize hL : nm.show (textEnv F disk) = L at *
  have hpath : ∀ name ∈ slopeFile :: names, F.canon name ≠ F.canon (pathJoin folder ("run_outs_" ++ L ++ ".csv")) := by
    intro name hn
    rcases List.mem_cons.mp hn with rfl | hn
    · exact hapart.table.1
    · rw [h2] at hn
      obtain ⟨r, _, rfl⟩ := List.mem_map.mp hn
      exact hapart.table.2 r
  obtain ⟨hne, lines, hlines⟩ := C90_only_if round F hcr folder names slopeFile L hid disk1 disk' figs.runOuts hpath g4
  obtain ⟨table, rows, k1, k2, k3⟩ := C90_get_run_outs round F rd hstr hcr folder names slopeFile L hid disk1 lines hne hpath hlines
  rw [k1, Prod.mk.injEq, Except.ok.injEq] at g4
  obtain ⟨g5, g6⟩ := g4
  obtain ⟨text3, data3, s, profile, p1, p2, p3, p4, p5, p6⟩ := (C91_plot_all_results F folder names jsonFile disk1 _ _).mp hplot
  rw [h6, Option.some.injEq] at p1
  subst p1
  have hdata3 : data3 = data2 := by
    have a := (jsonLoads_iff F.float _ _).mpr h7
    have b := (jsonLoads_iff F.float _ _).mpr p2
    rw [a] at b
    exact (Except.ok.inj b).symm
  subst hdata3
  have hkeep : ∀ file, F.canon file ≠ F.canon (runOutsPath folder L) → lookup disk' (F.canon file) = lookup disk1 (F.canon file) := by
    intro file hf
    rw [← g6, lookup_cons_eq, if_neg (fun e => hf e.symm)]
  have hslope : lookup disk1 (F.canon slopeFile) = lookup disk (F.canon slopeFile) := by
    obtain ⟨a, b⟩ := hapart.inputs slopeFile (Or.inr rfl)
    exact h5 slopeFile a b
  rw [h2, List.forall₂_map_left_iff] at hlines p6
  obtain ⟨rs, e1, e2, e3, hrs⟩ := collect_rates
    (Q := RateDone grid fuel round F template L jsonFile folder slopeFile disk disk')
    (fun r o lc l hro hlc hl => by
      obtain ⟨hro1, hro2⟩ := hro
      obtain ⟨hlab, text, fst, rest, d1, d2, d3, d4, d5⟩ := hlc
      obtain ⟨text2, profile, r1, r2, far, second, q0, samples, r3⟩ := hl
      rw [d1, Option.some.injEq] at r1
      subst r1
      refine ⟨text, hro1, ?_, ?_, hlab, ⟨fst, rest, d2, d3, d4, d5⟩, ⟨profile, far, second, q0, samples, ?_, r3⟩⟩
      · rcases hro2 with ⟨a, b⟩ | ⟨out, a, b⟩
        · exact Or.inr ⟨a, by rw [← b, d1]⟩
        · rw [d1, Option.some.injEq] at b
          rw [b]
          exact Or.inl a
      · rw [hkeep _ (hapart.table.2 r)]
        exact d1
      · rw [← hslope]; exact r2) (forall₂_both h3 h4) p6 hlines
  refine ⟨rs, ?_, ?_, hrs, e2.symm, ?_, ⟨s, profile, ?_, ?_, p5⟩, ⟨table, rows, ?_, k2, by rw [e3]; exact k3⟩, ?_⟩
  · intro e
    rw [e] at e1
    rw [h2, ← e1] at hne
    exact hne rfl
  · rw [e1]; exact h1
  · rw [← g5, ← e3]
    simp [List.map_map, Function.comp_def]
  · exact (h8 "slope_file" (by decide) _).mp p3
  · obtain ⟨a, b⟩ := hapart.inputs s (Or.inl (Or.inl ((h8 "slope_file" (by decide) _).mp p3)))
    rw [← h5 s a b]; exact p4
  · rw [← g6, lookup_cons_eq]; exact if_pos rfl
  · intro file f1 f2 f3
    rw [hkeep file f2, h5 file f1 f3]

/-- **C92**, conversely. A sweep whose runs end normally is complete, if there is a rate, the profile of the template can be read,
    and each result can be drawn and reported on. -/
theorem C92_sweep_completes (rd : ℝ → ℝ) (hstr : ∀ c, F.float (F.str c) = some (rd c.value)) (hcr : ∀ c, '\r' ∉ F.str c)
    (hl : lookup disk (F.canon jsonFile) = some text) (ht : JsonText F.float (universal text) template)
    (hnums : NumsAll (Readable F.float sn) template) (hlava : TopEntry template "lava_name" lava)
    (hid : '\r' ∉ (lava.show (textEnv F disk)).toList)
    (hapart : Apart F template (lava.show (textEnv F disk)) jsonFile folder slopeFile) (names : List String) (disk1 : List (String × List Char))
    (hs : sweepText grid fuel F sn jsonFile folder first last step disk = some (.ok names, disk1)) (hne : names ≠ [])
    (s : String) (profile : List Char) (slope : List (ℝ × ℝ × ℝ)) (hslope : TopEntry template "slope_file" (.str s))
    (hprofile : lookup disk (F.canon s) = some profile) (hsamples : ProfileSamples F.float (dataLines profile) slope)
    (hdrawn : ∀ name ∈ names, ∃ c, Drawn F disk1 name c) (hreport : ∀ name ∈ names, ∃ line, Reports round F disk1 slopeFile name line) :
    ∃ figs disk', sweepFullText grid fuel round F sn jsonFile folder slopeFile first last step disk = some (.ok figs, disk') := by
  obtain ⟨rates, runs, h1, h2, h3, h4, h5, text', data', h6, h7, h8⟩ :=
    sweep_facts grid fuel F sn jsonFile folder slopeFile first last step disk text template lava hl ht hnums hlava hapart names disk1 hs
  have hpath : ∀ name ∈ slopeFile :: names,
      F.canon name ≠ F.canon (pathJoin folder ("run_outs_" ++ (lava.show (textEnv F disk)) ++ ".csv")) := by
    intro name hn
    rcases List.mem_cons.mp hn with rfl | hn
    · exact hapart.table.1
    · rw [h2] at hn
      obtain ⟨r, _, rfl⟩ := List.mem_map.mp hn
      exact hapart.table.2 r
  have hcs : ∃ cs : List (List Char × PlotCurves ℝ),
      List.Forall₂ (fun name lc => lc.1 = plotLabel folder name ∧ Drawn F disk1 name lc.2) names cs := by
    clear * - hdrawn
    induction names with
    | nil => exact ⟨[], .nil⟩
    | cons n ns ih =>
      obtain ⟨cs, hcs⟩ := ih fun name hn => hdrawn name (List.mem_cons_of_mem _ hn)
      obtain ⟨c, hc⟩ := hdrawn n (by simp)
      exact ⟨(plotLabel folder n, c) :: cs, .cons ⟨rfl, hc⟩ hcs⟩
  have hls : ∃ lines, List.Forall₂ (Reports round F disk1 slopeFile) names lines := by
    clear * - hreport
    induction names with
    | nil => exact ⟨[], .nil⟩
    | cons n ns ih =>
      obtain ⟨cs, hcs⟩ := ih fun name hn => hreport name (List.mem_cons_of_mem _ hn)
      obtain ⟨c, hc⟩ := hreport n (by simp)
      exact ⟨c :: cs, .cons hc hcs⟩
  obtain ⟨cs, hcs⟩ := hcs
  obtain ⟨lines, hlines⟩ := hls
  obtain ⟨table, rows, k1, _, _⟩ := C90_get_run_outs round F rd hstr hcr folder names slopeFile _ hid disk1 lines hne hpath hlines
  have hplot : plotAllText F folder names jsonFile disk1 = .ok (slope, cs) := by
    refine (C91_plot_all_results F folder names jsonFile disk1 slope cs).mpr ⟨text', data', s, profile, h6, h7, ?_, ?_, hsamples, hcs⟩
    · exact (h8 "slope_file" (by decide) _).mpr hslope
    · obtain ⟨a, b⟩ := hapart.inputs s (Or.inl (Or.inl hslope))
      rw [h5 s a b]; exact hprofile
  have hget : data'.get "lava_name" = .ok lava := by
    obtain ⟨l, e, hlk⟩ := (h8 "lava_name" (by decide) lava).mpr hlava
    exact (get_ok_iff _ _ _).mpr ⟨l, e, hlk⟩
  rw [← show_disk F disk1 disk lava] at k1
  have hpost := (sweepPost_ok round F jsonFile folder slopeFile names disk1 _ ⟨slope, cs, _⟩).mpr
    ⟨hplot, text', data', lava, h6, (jsonLoads_iff F.float _ _).mpr h7, hget, k1⟩
  unfold sweepFullText
  rw [hs]
  dsimp only
  rw [hpost]
  exact ⟨_, _, rfl⟩

/-- **C92**. Whatever happens in the post-processing, the results of the runs stay as they are: it writes the run-out table only. -/
theorem C92_results_survive (names : List String) (disk1 disk' : List (String × List Char)) (outcome : Except Err (SweepFigures ℝ))
    (hs : sweepText grid fuel F sn jsonFile folder first last step disk = some (.ok names, disk1))
    (h : sweepFullText grid fuel round F sn jsonFile folder slopeFile first last step disk = some (outcome, disk')) :
    disk' = disk1 ∨ ∃ text data nm table, lookup disk1 (F.canon jsonFile) = some text ∧ JsonText F.float (universal text) data ∧
      TopEntry data "lava_name" nm ∧ disk' = (F.canon (runOutsPath folder (nm.show (textEnv F disk))), table) :: disk1 := by
  unfold sweepFullText at h
  rw [hs] at h
  dsimp only at h
  rw [Option.some.injEq] at h
  unfold sweepPost at h
  split at h
  · exact Or.inl (congrArg Prod.snd h).symm
  split at h
  · exact Or.inl (congrArg Prod.snd h).symm
  rename_i text hl
  split at h
  · exact Or.inl (congrArg Prod.snd h).symm
  rename_i data hj
  split at h
  · exact Or.inl (congrArg Prod.snd h).symm
  rename_i nm hn
  have key : ∃ table, disk' = (F.canon (runOutsPath folder (nm.show (textEnv F disk))), table) :: disk1 := by
    rw [show_disk F disk1 disk nm] at h
    have hg : ∃ o table, getRunOutsText round F folder names slopeFile (nm.show (textEnv F disk)) disk1 =
        (o, (F.canon (runOutsPath folder (nm.show (textEnv F disk))), table) :: disk1) := by
      unfold getRunOutsText
      dsimp only
      split
      · exact ⟨_, _, rfl⟩
      · exact ⟨_, _, rfl⟩
    obtain ⟨o, table, hg⟩ := hg
    rw [hg] at h
    cases o with
    | error e => exact ⟨table, (congrArg Prod.snd h).symm⟩
    | ok ro => exact ⟨table, (congrArg Prod.snd h).symm⟩
  obtain ⟨table, hk⟩ := key
  obtain ⟨l, rfl, hlk⟩ := (get_ok_iff _ _ _).mp hn
  exact Or.inr ⟨text, _, nm, table, hl, (jsonLoads_iff F.float _ _).mp hj, ⟨l, rfl, hlk⟩, hk⟩

end PyFlowGo
