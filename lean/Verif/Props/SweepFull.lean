import Verif.Model.SweepFull
import Verif.Props.Plot
import Verif.Props.Sweep
/-
  C68: what a sweep leaves behind besides the result files: the curves and the run-out table.
-/
set_option linter.unusedSectionVars false
namespace PyFlowGo
open Spec

theorem lookup_append {ν : Type} (a b : List (String × ν)) (k : String) :
    lookup (a ++ b) k = (lookup a k).or (lookup b k) := by
  unfold lookup
  rw [List.find?_append]
  cases a.find? (fun kv => kv.1 == k) <;> rfl

theorem lookup_of_mem {ν : Type} (l : List (String × ν)) (k : String) (v : ν) (h : (k, v) ∈ l)
    (hu : ∀ v', (k, v') ∈ l → v' = v) : lookup l k = some v := by
  unfold lookup
  cases hf : l.find? (fun kv => kv.1 == k) with
  | none =>
    rw [List.find?_eq_none] at hf
    exact absurd (hf _ h) (by simp)
  | some kv =>
    have h1 := List.find?_some hf
    have h2 := List.mem_of_find?_eq_some hf
    simp only [beq_iff_eq] at h1
    rw [Option.map_some]
    congr 1
    apply hu
    rw [← h1]
    exact h2

/-- The file of each run of a sweep is found under the name returned for its rate. -/
theorem sweep_file (grid : List ℝ) (fuel : Nat) (env : Env ℝ) (template : Json ℝ) (working folder : String) (rates : List Int)
    (lava : Json ℝ) (runs : List (SweepRun ℝ)) (old : List (String × CsvTable (Cell ℝ))) (hnd : rates.Nodup)
    (hlava : rates ≠ [] → TopEntry template "lava_name" lava)
    (hruns : List.Forall₂ (IsSweepRun grid fuel env template working folder) rates runs)
    (hdist : DistinctFiles env folder (lava.show env)) (hlog : ∀ o ∈ runs, o.log ≠ []) :
    List.Forall₂ (fun name o => ∃ t, writeValues o.log = .ok (some t) ∧
        lookup (runs.reverse.flatMap (·.files) ++ old) (env.canon name) = some t)
      (rates.map fun r => resultFileName folder (lava.show env) (toString r)) runs := by
  rw [List.forall₂_map_left_iff]
  have hlen := hruns.length_eq
  rw [List.forall₂_iff_get] at hruns ⊢
  obtain ⟨_, hr⟩ := hruns
  have hfile : ∀ i (h1 : i < rates.length) (h2 : i < runs.length), ∃ t, writeValues (runs.get ⟨i, h2⟩).log = .ok (some t) ∧
      (runs.get ⟨i, h2⟩).files = [(env.canon (resultFileName folder (lava.show env) (toString (rates.get ⟨i, h1⟩))), t)] := by
    intro i h1 h2
    have hne : rates ≠ [] := by rintro rfl; simp at h1
    rcases C57_sweep_run_file grid fuel env template working folder _ _ lava (hlava hne) (hr i h1 h2) with ⟨h, _⟩ | ⟨_, h⟩
    · exact absurd h (hlog _ (List.get_mem runs ⟨i, h2⟩))
    · exact h
  refine ⟨hlen, fun i h1 h2 => ?_⟩
  obtain ⟨t, ht, hf⟩ := hfile i h1 h2
  refine ⟨t, ht, ?_⟩
  rw [lookup_append, lookup_of_mem _ _ t]
  · rfl
  · rw [List.mem_flatMap]
    exact ⟨runs.get ⟨i, h2⟩, List.mem_reverse.mpr (List.get_mem runs ⟨i, h2⟩), by rw [hf]; simp⟩
  · intro v' hv
    rw [List.mem_flatMap] at hv
    obtain ⟨o, ho, hmem⟩ := hv
    rw [List.mem_reverse] at ho
    obtain ⟨j, hj⟩ := List.get_of_mem ho
    have hj1 : (j : Nat) < rates.length := by have := j.2; omega
    obtain ⟨t', ht', hf'⟩ := hfile j hj1 j.2
    have hoj : o = runs.get ⟨j, j.2⟩ := hj.symm
    rw [hoj, hf', List.mem_singleton, Prod.mk.injEq] at hmem
    have hrate := hdist _ _ hmem.1
    have hij : i = (j : Nat) := by
      have := (List.Nodup.get_inj_iff hnd).mp hrate
      exact congrArg Fin.val this
    subst hij
    rw [hf] at hf'
    rw [List.cons.injEq, Prod.mk.injEq] at hf'
    rw [hmem.2, ← hf'.1.2]

theorem runOutsLoop_ok (round : Nat → ℝ → ℝ) (lines : List (SlopeLine ℝ)) (results : String → Option (CsvTable (Cell ℝ)))
    (names : List String) (ls : List (RunOut ℝ)) :
    runOutsLoop round (some lines) results names = (.ok (), ls) ↔
      List.Forall₂ (fun name l => ∃ t, results name = some t ∧ getRunOut round t lines = .ok l) names ls := by
  induction names generalizing ls with
  | nil =>
    unfold runOutsLoop
    constructor
    · intro h; simp only [Prod.mk.injEq, true_and] at h; rw [← h]; exact List.Forall₂.nil
    · intro h; cases h; rfl
  | cons name rest ih =>
    unfold runOutsLoop
    cases hr : results name with
    | none =>
      constructor
      · intro h; simp at h
      · intro h; cases h with | cons h1 _ => obtain ⟨t, h1, _⟩ := h1; rw [hr] at h1; cases h1
    | some t =>
      dsimp only
      cases hg : getRunOut round t lines with
      | error e =>
        constructor
        · intro h; simp at h
        · intro h
          cases h with
          | cons h1 _ =>
            obtain ⟨t', h1, h2⟩ := h1
            rw [hr] at h1
            obtain rfl := Option.some.inj h1
            rw [hg] at h2; cases h2
      | ok line =>
        dsimp only
        cases hl : runOutsLoop round (some lines) results rest with
        | mk e ls' =>
          dsimp only
          constructor
          · intro h
            simp only [Prod.mk.injEq] at h
            obtain ⟨rfl, rfl⟩ := h
            exact List.Forall₂.cons ⟨t, hr, hg⟩ ((ih ls').mp hl)
          · intro h
            cases h with
            | cons h1 h2 =>
              obtain ⟨t', h1, h3⟩ := h1
              rw [hr] at h1
              obtain rfl := Option.some.inj h1
              rw [hg] at h3
              injection h3 with h3
              have := (ih _).mpr h2
              rw [hl] at this
              simp only [Prod.mk.injEq] at this ⊢
              exact ⟨this.1, by rw [h3, this.2]⟩

theorem runOutsLoop_none (round : Nat → ℝ → ℝ) (results : String → Option (CsvTable (Cell ℝ)))
    (names : List String) (hne : names ≠ []) (ls : List (RunOut ℝ)) :
    runOutsLoop round none results names ≠ (.ok (), ls) := by
  cases names with
  | nil => exact absurd rfl hne
  | cons name rest =>
    unfold runOutsLoop
    cases results name <;> simp

theorem transfer {γ : Type} (results : String → Option (CsvTable (Cell ℝ))) (P : CsvTable (Cell ℝ) → γ → Prop)
    (names : List String) (runs : List (SweepRun ℝ))
    (hF : List.Forall₂ (fun name o => ∃ t, writeValues o.log = .ok (some t) ∧ results name = some t) names runs) (cs : List γ) :
    List.Forall₂ (fun name c => ∃ t, results name = some t ∧ P t c) names cs ↔
      List.Forall₂ (fun o c => ∃ t, writeValues o.log = .ok (some t) ∧ P t c) runs cs := by
  induction hF generalizing cs with
  | nil => constructor <;> (intro h; cases h; exact List.Forall₂.nil)
  | cons h1 _ ih =>
    obtain ⟨t, h1, h2⟩ := h1
    cases cs with
    | nil => constructor <;> (intro h; cases h)
    | cons c cs =>
      rw [List.forall₂_cons, List.forall₂_cons, ih]
      refine and_congr ⟨?_, ?_⟩ Iff.rfl
      · rintro ⟨t', h3, h4⟩
        rw [h2] at h3
        obtain rfl := Option.some.inj h3
        exact ⟨t, h1, h4⟩
      · rintro ⟨t', h3, h4⟩
        rw [h1] at h3
        injection h3 with h3
        obtain rfl := Option.some.inj h3
        exact ⟨t, h2, h4⟩

theorem written_of (results : String → Option (CsvTable (Cell ℝ))) (names : List String) (runs : List (SweepRun ℝ))
    (hF : List.Forall₂ (fun name o => ∃ t, writeValues o.log = .ok (some t) ∧ results name = some t) names runs) :
    ∀ name ∈ names, ∀ t, results name = some t → ∃ log, writeValues log = .ok (some t) := by
  induction hF with
  | nil => intro name hn; cases hn
  | cons h1 _ ih =>
    intro name hn t ht
    rcases List.mem_cons.mp hn with rfl | hn
    · obtain ⟨t', h1, h2⟩ := h1
      rw [h2] at ht
      obtain rfl := Option.some.inj ht
      exact ⟨_, h1⟩
    · exact ih name hn t ht

/-- The configuration file after the sweep: the same entries but for the effusion rate. -/
theorem sweep_template (grid : List ℝ) (fuel : Nat) (env : Env ℝ) (jsonFile folder : String) (first last step : Int)
    (p p1 : Proc ℝ) (names : List String) (template : Json ℝ)
    (h : sweep grid fuel env jsonFile folder first last step p = some (.ok names, p1))
    (htemp : lookup p.json (env.canon jsonFile) = some template) :
    ∃ data, lookup p1.json (env.canon jsonFile) = some data ∧
      ∀ k, k ≠ "effusion_rate_init" → ∀ x, TopEntry data k x ↔ TopEntry template k x := by
  by_cases hsame : env.canon jsonFile = env.canon (workingFile jsonFile folder)
  · obtain ⟨t, rates, h1, _, h3, h4⟩ := C58_working_copy _ _ _ _ _ _ _ _ _ _ _ h
    rw [htemp] at h1
    obtain rfl := Option.some.inj h1
    cases hl : rates.getLast? with
    | none =>
      rw [h3 (List.getLast?_eq_none_iff.mp hl)]
      exact ⟨_, htemp, fun _ _ _ => Iff.rfl⟩
    | some r =>
      obtain ⟨data, h5, h6⟩ := h4 r hl
      rw [hsame]
      exact ⟨data, h5, h6.2⟩
  · exact ⟨template, by rw [C58_only_the_working_copy _ _ _ _ _ _ _ _ _ _ _ h jsonFile hsame]; exact htemp,
      fun _ _ _ => Iff.rfl⟩

/-- **C68**. A sweep whose runs all ended normally and all logged something. The post-processing then succeeds exactly when
    there was at least one run, the template names a slope file that can be read, the slope file passed on can be read, and
    every single result can be drawn and post-processed. Its output is then one set of curves and one line of the run-out
    file per rate, in the order of the rates, computed from that rate's result alone. -/
theorem C68_sweep_output (grid : List ℝ) (fuel : Nat) (round : Nat → ℝ → ℝ) (env : Env ℝ)
    (jsonFile folder slopeFile : String) (first last step : Int) (p p1 : Proc ℝ) (names : List String)
    (template : Json ℝ) (rates : List Int) (lava : Json ℝ) (runs : List (SweepRun ℝ))
    (hsweep : sweep grid fuel env jsonFile folder first last step p = some (.ok names, p1))
    (htemp : lookup p.json (env.canon jsonFile) = some template)
    (hrates : sweepRates first last step = .ok rates)
    (hlava : TopEntry template "lava_name" lava)
    (hruns : List.Forall₂ (IsSweepRun grid fuel env template (workingFile jsonFile folder) folder) rates runs)
    (hres : p1.results = runs.reverse.flatMap (·.files) ++ p.results)
    (hdist : DistinctFiles env folder (lava.show env)) (hlog : ∀ o ∈ runs, o.log ≠ []) (out : SweepOutput ℝ) :
    sweepFull grid fuel round env jsonFile folder slopeFile first last step p = some (.ok (), p1, out) ↔
      rates ≠ [] ∧
      (∃ s profile, TopEntry template "slope_file" (.str s) ∧ env.slopeFile s = some profile) ∧
      ∃ lines cs ls, env.slopeFile slopeFile = some lines ∧
        List.Forall₂ (fun o c => ∃ t, writeValues o.log = .ok (some t) ∧ plotFile false t = .ok (c, true)) runs cs ∧
        List.Forall₂ (fun o l => ∃ t, writeValues o.log = .ok (some t) ∧ getRunOut round t lines = .ok l) runs ls ∧
        out = { curves := some cs,
                runOuts := some { path := pathJoin folder ("run_outs_" ++ lava.show env ++ ".csv"),
                                  flowId := lava.show env, lines := ls } } := by
  obtain ⟨t', rates', lava', runs', e1, e2, e3, e4, _, _⟩ := C57_sweep_is_fresh_runs _ _ _ _ _ _ _ _ _ _ _ hsweep
  rw [htemp] at e1
  obtain rfl := Option.some.inj e1
  rw [hrates] at e2
  injection e2 with e2
  subst e2
  have hnames : names = rates.map fun r => resultFileName folder (lava.show env) (toString r) := by
    rw [e4]
    by_cases hr : rates = []
    · rw [hr]; rfl
    · rw [topEntry_unique (e3 hr) hlava]
  have hnd : rates.Nodup := by
    have := C57_sweep_names _ _ _ _ _ _ _ _ _ _ _ hsweep
    rw [hnames] at this
    exact List.Nodup.of_map _ this
  have hF := sweep_file grid fuel env template (workingFile jsonFile folder) folder rates lava runs p.results hnd
    (fun _ => hlava) hruns hdist hlog
  rw [← hnames, ← hres] at hF
  obtain ⟨data, hdata, hsameEntries⟩ := sweep_template grid fuel env jsonFile folder first last step p p1 names template
    hsweep htemp
  have hlava1 : TopEntry data "lava_name" lava := (hsameEntries _ (by decide) _).mpr hlava
  obtain ⟨l, rfl, hl⟩ := hlava1
  have hget : (Json.obj l).get "lava_name" = .ok lava := (get_ok_iff _ _ _).mpr ⟨l, rfl, hl⟩
  have hslope : ∀ x, lookup l "slope_file" = some x ↔ TopEntry template "slope_file" x := by
    intro x
    rw [← hsameEntries _ (by decide)]
    constructor
    · intro h; exact ⟨l, rfl, h⟩
    · rintro ⟨l', e, h⟩
      injection e with e
      rw [e]; exact h
  have hwritten : ∀ name ∈ names, ∀ t, lookup p1.results (env.canon name) = some t → ∃ log, writeValues log = .ok (some t) := by
    exact written_of (fun name => lookup p1.results (env.canon name)) names runs hF
  have hempty : names = [] ↔ rates = [] := by rw [hnames, List.map_eq_nil_iff]
  unfold sweepFull
  rw [hsweep]
  dsimp only
  unfold plotAll
  rw [hdata]
  dsimp only
  have hplot := fun cs => C67_files (fun name => lookup p1.results (env.canon name)) names hwritten false cs
  have hT1 := fun cs => transfer (fun name => lookup p1.results (env.canon name))
    (fun t c => plotFile false t = .ok (c, true)) names runs hF cs
  constructor
  · intro h
    cases hs : lookup l "slope_file" with
    | none => rw [hs] at h; simp at h
    | some x =>
      rw [hs] at h
      cases x with
      | str s =>
        dsimp only at h
        cases hp : env.slopeFile s with
        | none => rw [hp] at h; simp at h
        | some profile =>
          rw [hp] at h
          dsimp only at h
          cases hc : plotLoop (fun name => lookup p1.results (env.canon name)) false names with
          | error e => rw [hc] at h; simp [bind, Except.bind] at h
          | ok cs =>
            rw [hc, ok_bind] at h
            simp only [pure, Except.pure] at h
            rw [hget] at h
            dsimp only at h
            unfold getRunOuts at h
            cases hlines : env.slopeFile slopeFile with
            | none =>
              rw [hlines] at h
              by_cases hne : names = []
              · rw [hne] at h
                unfold runOutsLoop at h
                simp at h
              · cases hr : runOutsLoop round none (fun name => lookup p1.results (env.canon name)) names with
                | mk e ls =>
                  cases e with
                  | ok u => exact absurd hr (runOutsLoop_none round _ names hne ls)
                  | error e => rw [hr] at h; simp at h
            | some lines =>
              rw [hlines] at h
              cases hr : runOutsLoop round (some lines) (fun name => lookup p1.results (env.canon name)) names with
              | mk e ls =>
                rw [hr] at h
                cases e with
                | error e => simp at h
                | ok u =>
                  dsimp only at h
                  have hT2 := (transfer (fun name => lookup p1.results (env.canon name))
                    (fun t l => getRunOut round t lines = .ok l) names runs hF ls).mp ((runOutsLoop_ok round lines _ names ls).mp hr)
                  by_cases hne : names = []
                  · rw [hne] at h; simp at h
                  · have : names.isEmpty = false := by simpa using hne
                    rw [this] at h
                    simp only [Bool.false_eq_true, if_false, Option.some.injEq, Prod.mk.injEq, true_and] at h
                    exact ⟨fun e => hne (hempty.mpr e), ⟨s, profile, (hslope _).mp hs, hp⟩, lines, cs, ls, rfl,
                      (hT1 cs).mp ((hplot cs).mp hc), hT2, h.symm⟩
      | _ => simp at h
  · rintro ⟨hr, ⟨s, profile, hs, hp⟩, lines, cs, ls, hlines, hcs, hls, rfl⟩
    rw [(hslope _).mpr hs]
    dsimp only
    rw [hp]
    dsimp only
    rw [(hplot cs).mpr ((hT1 cs).mpr hcs), ok_bind]
    simp only [pure, Except.pure]
    rw [hget]
    dsimp only
    unfold getRunOuts
    rw [hlines, (runOutsLoop_ok round lines _ names ls).mpr ((transfer (fun name => lookup p1.results (env.canon name))
      (fun t l => getRunOut round t lines = .ok l) names runs hF ls).mpr hls)]
    have : names.isEmpty = false := by
      cases hn : names with
      | nil => exact absurd (hempty.mp hn) hr
      | cons _ _ => rfl
    rw [this]
    rfl

theorem lookup_none_of {ν : Type} (l : List (String × ν)) (k : String) (h : ∀ v, (k, v) ∉ l) : lookup l k = none := by
  unfold lookup
  rw [Option.map_eq_none_iff, List.find?_eq_none]
  rintro ⟨a, b⟩ hx he
  simp only [beq_iff_eq] at he
  exact h b (he ▸ hx)

theorem plotAll_error_of (env : Env ℝ) (p : Proc ℝ) (names : List String) (jsonFile : String) (e : Err)
    (h : plotLoop (fun name => lookup p.results (env.canon name)) false names = .error e) :
    ∃ e', plotAll env p names jsonFile = .error e' := by
  unfold plotAll
  split
  · exact ⟨_, rfl⟩
  · split
    · split
      · exact ⟨_, rfl⟩
      · exact ⟨e, by rw [h]; rfl⟩
    · exact ⟨_, rfl⟩
  · exact ⟨_, rfl⟩

theorem sweepFull_of_plot_error (grid : List ℝ) (fuel : Nat) (round : Nat → ℝ → ℝ) (env : Env ℝ)
    (jsonFile folder slopeFile : String) (first last step : Int) (p p1 : Proc ℝ) (names : List String) (e : Err)
    (hsweep : sweep grid fuel env jsonFile folder first last step p = some (.ok names, p1))
    (h : plotLoop (fun name => lookup p1.results (env.canon name)) false names = .error e) :
    ∃ e', sweepFull grid fuel round env jsonFile folder slopeFile first last step p =
      some (.error e', p1, { curves := none, runOuts := none }) := by
  obtain ⟨e', he⟩ := plotAll_error_of env p1 names jsonFile e h
  refine ⟨e', ?_⟩
  unfold sweepFull
  rw [hsweep]
  dsimp only
  rw [he]

/-- **C68** (what users do not expect). If a single result of the sweep cannot be drawn (fewer than three rows, a partial
    last row, neither forced convection nor Snyder switched on), the whole post-processing is lost: the call raises, no figure
    is saved and no run-out file is written, not even for the other rates. -/
theorem C68_one_bad_run (grid : List ℝ) (fuel : Nat) (round : Nat → ℝ → ℝ) (env : Env ℝ)
    (jsonFile folder slopeFile : String) (first last step : Int) (p p1 : Proc ℝ) (names : List String)
    (template : Json ℝ) (rates : List Int) (lava : Json ℝ) (runs : List (SweepRun ℝ))
    (hsweep : sweep grid fuel env jsonFile folder first last step p = some (.ok names, p1))
    (htemp : lookup p.json (env.canon jsonFile) = some template)
    (hrates : sweepRates first last step = .ok rates)
    (hlava : TopEntry template "lava_name" lava)
    (hruns : List.Forall₂ (IsSweepRun grid fuel env template (workingFile jsonFile folder) folder) rates runs)
    (hres : p1.results = runs.reverse.flatMap (·.files) ++ p.results)
    (hdist : DistinctFiles env folder (lava.show env)) (hlog : ∀ o ∈ runs, o.log ≠ [])
    (o : SweepRun ℝ) (ho : o ∈ runs) (hbad : ∀ t c, writeValues o.log = .ok (some t) → plotFile false t ≠ .ok (c, true)) :
    ∃ e, sweepFull grid fuel round env jsonFile folder slopeFile first last step p =
      some (.error e, p1, { curves := none, runOuts := none }) := by
  obtain ⟨t', rates', lava', runs', e1, e2, e3, e4, _, _⟩ := C57_sweep_is_fresh_runs _ _ _ _ _ _ _ _ _ _ _ hsweep
  rw [htemp] at e1
  obtain rfl := Option.some.inj e1
  rw [hrates] at e2
  injection e2 with e2
  subst e2
  have hnames : names = rates.map fun r => resultFileName folder (lava.show env) (toString r) := by
    rw [e4]
    by_cases hr : rates = []
    · rw [hr]; rfl
    · rw [topEntry_unique (e3 hr) hlava]
  have hnd : rates.Nodup := by
    have := C57_sweep_names _ _ _ _ _ _ _ _ _ _ _ hsweep
    rw [hnames] at this
    exact List.Nodup.of_map _ this
  have hF := sweep_file grid fuel env template (workingFile jsonFile folder) folder rates lava runs p.results hnd
    (fun _ => hlava) hruns hdist hlog
  rw [← hnames, ← hres] at hF
  cases hc : plotLoop (fun name => lookup p1.results (env.canon name)) false names with
  | error e => exact sweepFull_of_plot_error grid fuel round env jsonFile folder slopeFile first last step p p1 names e hsweep hc
  | ok cs =>
    exfalso
    rw [C67_files _ names (written_of (fun name => lookup p1.results (env.canon name)) names runs hF),
      transfer (fun name => lookup p1.results (env.canon name)) (fun t c => plotFile false t = .ok (c, true)) names runs hF cs]
      at hc
    obtain ⟨i, hi⟩ := List.get_of_mem ho
    rw [List.forall₂_iff_get] at hc
    obtain ⟨t, h1, h2⟩ := hc.2 i i.2 (by rw [← hc.1]; exact i.2)
    have hoi : runs.get ⟨i, i.2⟩ = o := hi
    rw [hoi] at h1
    exact hbad t _ h1 h2

/-- **C68** (what users do not expect). A run of the sweep that logged nothing writes no file. If an earlier result of that
    name is there, it is found in its place, and is drawn and post-processed as if it were this run's; if there is none, the
    post-processing raises and produces nothing. -/
theorem C68_silent_run (grid : List ℝ) (fuel : Nat) (round : Nat → ℝ → ℝ) (env : Env ℝ)
    (jsonFile folder slopeFile : String) (first last step : Int) (p p1 : Proc ℝ) (names : List String)
    (template : Json ℝ) (rates : List Int) (lava : Json ℝ) (runs : List (SweepRun ℝ))
    (hsweep : sweep grid fuel env jsonFile folder first last step p = some (.ok names, p1))
    (htemp : lookup p.json (env.canon jsonFile) = some template)
    (hrates : sweepRates first last step = .ok rates)
    (hlava : TopEntry template "lava_name" lava)
    (hruns : List.Forall₂ (IsSweepRun grid fuel env template (workingFile jsonFile folder) folder) rates runs)
    (hres : p1.results = runs.reverse.flatMap (·.files) ++ p.results)
    (hdist : DistinctFiles env folder (lava.show env)) (i : Nat) (r : Int) (o : SweepRun ℝ) (hr : rates[i]? = some r)
    (ho : runs[i]? = some o) (hsilent : o.log = []) :
    lookup p1.results (env.canon (resultFileName folder (lava.show env) (toString r))) =
      lookup p.results (env.canon (resultFileName folder (lava.show env) (toString r))) ∧
    (lookup p.results (env.canon (resultFileName folder (lava.show env) (toString r))) = none →
      ∃ e, sweepFull grid fuel round env jsonFile folder slopeFile first last step p =
        some (.error e, p1, { curves := none, runOuts := none })) := by
  obtain ⟨t', rates', lava', runs', e1, e2, e3, e4, _, _⟩ := C57_sweep_is_fresh_runs _ _ _ _ _ _ _ _ _ _ _ hsweep
  rw [htemp] at e1
  obtain rfl := Option.some.inj e1
  rw [hrates] at e2
  injection e2 with e2
  subst e2
  have hne : rates ≠ [] := by rintro rfl; simp at hr
  have hnames : names = rates.map fun r => resultFileName folder (lava.show env) (toString r) := by
    rw [e4, topEntry_unique (e3 hne) hlava]
  have hnd : rates.Nodup := by
    have := C57_sweep_names _ _ _ _ _ _ _ _ _ _ _ hsweep
    rw [hnames] at this
    exact List.Nodup.of_map _ this
  have hlook : lookup p1.results (env.canon (resultFileName folder (lava.show env) (toString r))) =
      lookup p.results (env.canon (resultFileName folder (lava.show env) (toString r))) := by
    rw [hres, lookup_append, lookup_none_of]
    · rfl
    · intro v hv
      rw [List.mem_flatMap] at hv
      obtain ⟨o', ho', hmem⟩ := hv
      rw [List.mem_reverse] at ho'
      obtain ⟨j, hj⟩ := List.get_of_mem ho'
      rw [List.forall₂_iff_get] at hruns
      have hj1 : (j : Nat) < rates.length := by rw [hruns.1]; exact j.2
      have hrun := hruns.2 j hj1 j.2
      have hoj : runs.get ⟨j, j.2⟩ = o' := hj
      rw [hoj] at hrun
      rcases C57_sweep_run_file grid fuel env template _ folder _ o' lava hlava hrun with ⟨_, h⟩ | ⟨hlog, t, _, h⟩
      · rw [h] at hmem; cases hmem
      · rw [h, List.mem_singleton, Prod.mk.injEq] at hmem
        have hrr := hdist _ _ hmem.1
        obtain ⟨hi1, hi2⟩ := List.getElem?_eq_some_iff.mp hr
        have : rates.get ⟨i, hi1⟩ = rates.get ⟨j, hj1⟩ := by rw [← hrr]; exact hi2
        have hij := congrArg Fin.val ((List.Nodup.get_inj_iff hnd).mp this)
        have hij : i = (j : Nat) := hij
        obtain ⟨hk1, hk2⟩ := List.getElem?_eq_some_iff.mp ho
        apply hlog
        rw [← hoj]
        subst hij
        have : runs.get ⟨(j : Nat), j.2⟩ = o := hk2
        rw [this]; exact hsilent
  refine ⟨hlook, fun hnone => ?_⟩
  have key : ∀ (ns : List String) (q : Bool), resultFileName folder (lava.show env) (toString r) ∈ ns →
      ∃ e, plotLoop (fun name => lookup p1.results (env.canon name)) q ns = .error e := by
    intro ns
    induction ns with
    | nil => intro q hm; cases hm
    | cons a rest ih =>
      intro q hm
      unfold plotLoop
      by_cases ha : a = resultFileName folder (lava.show env) (toString r)
      · rw [ha, hlook, hnone]; exact ⟨_, rfl⟩
      · have hm' := (List.mem_cons.mp hm).resolve_left fun e => ha e.symm
        cases lookup p1.results (env.canon a) with
        | none => exact ⟨_, rfl⟩
        | some t =>
          dsimp only
          cases plotFile q t with
          | error e => exact ⟨e, rfl⟩
          | ok cq =>
            obtain ⟨c, q'⟩ := cq
            obtain ⟨e, he⟩ := ih q' hm'
            refine ⟨e, ?_⟩
            show (do let cs ← plotLoop (fun name => lookup p1.results (env.canon name)) q' rest; return c :: cs) = _
            rw [he]; rfl
  obtain ⟨e, he⟩ := key names false (by
    rw [hnames]
    exact List.mem_map.mpr ⟨r, List.mem_of_getElem? hr, rfl⟩)
  exact sweepFull_of_plot_error grid fuel round env jsonFile folder slopeFile first last step p p1 names e hsweep he

/-- **C68** (what users do not expect). An empty range of rates: nothing is run, and the call raises NameError
    (UnboundLocalError) after writing a run-out file without a line, provided the files it needs are there. -/
theorem C68_empty_sweep (grid : List ℝ) (fuel : Nat) (round : Nat → ℝ → ℝ) (env : Env ℝ)
    (jsonFile folder slopeFile : String) (first last step : Int) (p : Proc ℝ) (l : List (String × Json ℝ)) (lava : Json ℝ)
    (s : String) (profile : List (SlopeLine ℝ))
    (htemp : lookup p.json (env.canon jsonFile) = some (.obj l)) (hrates : sweepRates first last step = .ok [])
    (hlava : lookup l "lava_name" = some lava) (hs : lookup l "slope_file" = some (.str s))
    (hp : env.slopeFile s = some profile) :
    sweepFull grid fuel round env jsonFile folder slopeFile first last step p = some (.error .nameError, p,
      { curves := some [], runOuts := some { path := pathJoin folder ("run_outs_" ++ lava.show env ++ ".csv"),
                                             flowId := lava.show env, lines := [] } }) := by
  have h1 : sweep grid fuel env jsonFile folder first last step p = some (.ok [], p) := by
    unfold sweep
    rw [htemp]; dsimp only; rw [hrates]; rfl
  have h2 : plotAll env p [] jsonFile = .ok (profile, []) := by
    unfold plotAll
    rw [htemp]; dsimp only; rw [hs]; dsimp only; rw [hp]; rfl
  have h3 : (Json.obj l).get "lava_name" = .ok lava := (get_ok_iff _ _ _).mpr ⟨l, rfl, hlava⟩
  unfold sweepFull
  rw [h1]; dsimp only
  rw [h2]; dsimp only
  rw [htemp]; dsimp only
  rw [h3]
  rfl

end PyFlowGo
