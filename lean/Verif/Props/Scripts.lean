import Verif.Model.Scripts
import Verif.Props.RelevantText
import Verif.Props.Gui
import Verif.Props.PlotTextExample
/-
  C103: the scripts that run the model and draw its result.
-/
set_option linter.unusedSectionVars false
namespace PyFlowGo
open Spec

section
variable {α : Type} [Add α] [Sub α] [Mul α] [Neg α] [OfScientific α] [PyNum α]

/-- A run that ends normally, on texts. -/
theorem run_text_wrote (F : TextFormat α) (grid : List α) (fuel : ℕ) (jsonFile folder : String) (disk d : List (String × List Char))
    (h : runTextOn grid fuel F jsonFile folder disk = some (.ok (), d)) :
    ∃ text data rate lava, lookup disk (F.canon jsonFile) = some text ∧ JsonText F.float (universal text) data ∧
      TopEntry data "effusion_rate_init" rate ∧ TopEntry data "lava_name" lava ∧
      (d = disk ∨ ∃ out, d = (F.canon (resultFileName folder (lava.show (textEnv F disk)) (rate.show (textEnv F disk))), out) :: disk) := by
  cases hl : lookup disk (F.canon jsonFile) with
  | none => unfold runTextOn at h; rw [hl] at h; simp at h
  | some text =>
    cases hj : jsonLoad F.float text with
    | error e => unfold runTextOn at h; rw [hl] at h; dsimp only at h; rw [hj] at h; simp at h
    | ok data =>
      have hd := (jsonLoads_iff F.float _ data).mp hj
      rw [runTextOn_value F grid fuel jsonFile folder disk text data hl hd] at h
      cases hr : runOn grid fuel (textEnv F disk) jsonFile folder (newRunner ⟨[(F.canon jsonFile, data)], [], []⟩) with
      | none => rw [hr] at h; cases h
      | some q =>
        rw [hr] at h
        obtain ⟨r, p⟩ := q
        simp only [Option.map_some, Option.some.injEq, Prod.mk.injEq] at h
        obtain ⟨rfl, rfl⟩ := h
        obtain ⟨_, data', rate, lava, hdata, h1, h2, h3⟩ := run_wrote _ _ _ _ _ _ _ hr
        have : data' = data := by
          have : lookup [(F.canon jsonFile, data)] (F.canon jsonFile) = some data' := hdata
          rw [lookup_cons_eq, if_pos rfl] at this
          exact (Option.some.inj this).symm
        subst this
        refine ⟨text, data', rate, lava, rfl, hd, h1, h2, ?_⟩
        rcases h3 with ⟨_, h3⟩ | ⟨_, t, _, h3⟩
        · left
          rw [h3]; rfl
        · right
          rw [h3]
          exact ⟨_, rfl⟩

/-- A run that fails, on texts. -/
theorem run_text_failed (F : TextFormat α) (grid : List α) (fuel : ℕ) (jsonFile folder : String) (disk d : List (String × List Char)) (e : Err)
    (h : runTextOn grid fuel F jsonFile folder disk = some (.error e, d)) : d = disk := by
  cases hl : lookup disk (F.canon jsonFile) with
  | none => unfold runTextOn at h; rw [hl] at h; simp only [Option.some.injEq, Prod.mk.injEq] at h; exact h.2.symm
  | some text =>
    cases hj : jsonLoad F.float text with
    | error e' =>
      unfold runTextOn at h; rw [hl] at h; dsimp only at h; rw [hj] at h
      simp only [Option.some.injEq, Prod.mk.injEq] at h
      exact h.2.symm
    | ok data =>
      have hd := (jsonLoads_iff F.float _ data).mp hj
      obtain ⟨outcome, h1, _, h3⟩ := C82_inputs_determine_result F grid fuel jsonFile folder disk disk text text data hl hl hd hd (fun _ _ => rfl)
      rw [h1] at h
      obtain ⟨⟨r, new⟩, hq, he⟩ := Option.map_eq_some_iff.mp h
      simp only [Prod.mk.injEq] at he
      obtain ⟨rfl, rfl⟩ := he
      rw [(h3 _ _ hq).2 (by simp)]; rfl

theorem show_disks (F : TextFormat α) (disk d : List (String × List Char)) (v : Json α) :
    v.show (textEnv F d) = v.show (textEnv F disk) := by
  cases v <;> rfl

/-- The name `get_file_name_results` gives, whatever was added to the disk but the configuration. -/
theorem fileName_iff (F : TextFormat α) (folder jsonFile : String) (disk d : List (String × List Char)) (text : List Char) (data : Json α)
    (hl : lookup d (F.canon jsonFile) = some text) (hd : JsonText F.float (universal text) data) (name : String) :
    fileNameText F folder jsonFile d = .ok name ↔
      ∃ rate lava, TopEntry data "effusion_rate_init" rate ∧ TopEntry data "lava_name" lava ∧
        name = resultFileName folder (lava.show (textEnv F disk)) (rate.show (textEnv F disk)) := by
  unfold fileNameText
  rw [hl]
  dsimp only
  rw [show jsonLoad F.float text = .ok data from (jsonLoads_iff F.float _ data).mpr hd, ok_bind]
  unfold getFileNameResults
  rw [show lookup [(F.canon jsonFile, data)] ((textEnv F d).canon jsonFile) = some data by
    rw [lookup_cons_eq]; exact if_pos rfl]
  dsimp only
  constructor
  · intro h
    obtain ⟨rate, h1, h⟩ := bind_ok_iff.mp h
    obtain ⟨lava, h2, h⟩ := bind_ok_iff.mp h
    rw [pure_ok_iff] at h
    refine ⟨rate, lava, (get_ok_iff _ _ _).mp h1, (get_ok_iff _ _ _).mp (requireTop_get h2), ?_⟩
    rw [← h, show_disks F disk d, show_disks F disk d]
  · rintro ⟨rate, lava, h1, h2, rfl⟩
    rw [(get_ok_iff _ _ _).mpr h1, ok_bind]
    unfold requireTop
    rw [has_true_of h2, ok_bind, if_pos rfl, (get_ok_iff _ _ _).mpr h2, ok_bind, pure_ok_iff,
      show_disks F disk d, show_disks F disk d]

/-- No result of this folder replaces the configuration file. -/
def Apart (F : TextFormat α) (folder jsonFile : String) : Prop :=
  ∀ lava rate, F.canon (resultFileName folder lava rate) ≠ F.canon jsonFile

/-- **C103**. `main_run_flowgo.py` ends normally exactly when the run does, and prints the name under which the run has stored its
    result, if it stored one. -/
theorem C103_main_run (F : TextFormat α) (grid : List α) (fuel : ℕ) (jsonFile folder : String) (hap : Apart F folder jsonFile)
    (disk d : List (String × List Char)) (name : String) :
    mainRun grid fuel F jsonFile folder disk = some (.ok name, d) ↔
      runTextOn grid fuel F jsonFile folder disk = some (.ok (), d) ∧
      ∃ text data rate lava, lookup disk (F.canon jsonFile) = some text ∧ JsonText F.float (universal text) data ∧
        TopEntry data "effusion_rate_init" rate ∧ TopEntry data "lava_name" lava ∧
        name = resultFileName folder (lava.show (textEnv F disk)) (rate.show (textEnv F disk)) ∧
        (d = disk ∨ ∃ out, d = (F.canon name, out) :: disk) := by
  constructor
  · intro h
    unfold mainRun at h
    split at h
    · simp at h
    · unfold runAndName at h
      cases hr : runTextOn grid fuel F jsonFile folder disk with
      | none => rw [hr] at h; cases h
      | some q =>
        obtain ⟨r, d'⟩ := q
        rw [hr] at h
        cases r with
        | error e => simp at h
        | ok u =>
          simp only [Option.some.injEq, Prod.mk.injEq] at h
          obtain ⟨h, rfl⟩ := h
          obtain ⟨text, data, rate, lava, hl, hd, h1, h2, h3⟩ := run_text_wrote F grid fuel jsonFile folder disk d' hr
          have hl' : lookup d' (F.canon jsonFile) = some text := by
            rcases h3 with rfl | ⟨out, rfl⟩
            · exact hl
            · rw [lookup_cons_eq, if_neg (hap _ _), hl]
          obtain ⟨rate', lava', h1', h2', rfl⟩ := (fileName_iff F folder jsonFile disk d' text data hl' hd name).mp h
          obtain rfl := topEntry_unique h1 h1'
          obtain rfl := topEntry_unique h2 h2'
          exact ⟨rfl, text, data, rate, lava, hl, hd, h1, h2, rfl, h3⟩
  · rintro ⟨hr, text, data, rate, lava, hl, hd, h1, h2, rfl, h3⟩
    have hl' : lookup d (F.canon jsonFile) = some text := by
      rcases h3 with rfl | ⟨out, rfl⟩
      · exact hl
      · rw [lookup_cons_eq, if_neg (hap _ _), hl]
    have hpeek : peekConfig F jsonFile disk = .ok () := by
      unfold peekConfig
      rw [hl]
      dsimp only
      rw [show jsonLoad F.float text = .ok data from (jsonLoads_iff F.float _ data).mpr hd, ok_bind]
      obtain ⟨top, rfl, _⟩ := h1
      rfl
    unfold mainRun
    rw [hpeek]
    dsimp only
    unfold runAndName
    rw [hr]
    dsimp only
    rw [(fileName_iff F folder jsonFile disk d text data hl' hd _).mpr ⟨rate, lava, h1, h2, rfl⟩]

/-- How a value of the configuration is written into a file name (`'{0}'.format(value)`), for texts, numbers,
    truth values and null; lists and objects are written by `repr`, which C80 is about. -/
inductive WrittenAs (F : TextFormat α) : Json α → String → Prop
  | text (s : String) : WrittenAs F (.str s) s
  | int (n : Int) : WrittenAs F (.int n) (toString n)
  | yes : WrittenAs F (.bool true) "True"
  | no : WrittenAs F (.bool false) "False"
  | null : WrittenAs F .null "None"
  | float (x : α) : WrittenAs F (.num x) (String.ofList (F.str (.num x)))

/-- **C82**. The name of the file a run adds: lava name and effusion rate as they stand in the configuration, a rate that is a
    float as floats are written in the result. -/
theorem C82_name_of_the_result (F : TextFormat α) (grid : List α) (fuel : ℕ) (jsonFile folder : String) (disk d : List (String × List Char))
    (h : runTextOn grid fuel F jsonFile folder disk = some (.ok (), d)) (hd : d ≠ disk) (text : List Char) (data rate lava : Json α)
    (hl : lookup disk (F.canon jsonFile) = some text) (ht : JsonText F.float (universal text) data)
    (hr : TopEntry data "effusion_rate_init" rate) (hlv : TopEntry data "lava_name" lava) (rateText lavaText : String)
    (wr : WrittenAs F rate rateText) (wl : WrittenAs F lava lavaText) :
    ∃ out, d = (F.canon (pathJoin folder ("results_flowgo_" ++ lavaText ++ "_" ++ rateText ++ "m3s.csv")), out) :: disk := by
  obtain ⟨text', data', rate', lava', g1, g2, g3, g4, g5⟩ := run_text_wrote F grid fuel jsonFile folder disk d h
  rw [hl] at g1
  obtain rfl := Option.some.inj g1
  have e := (jsonLoads_iff F.float _ _).mpr g2
  rw [(jsonLoads_iff F.float _ _).mpr ht] at e
  obtain rfl := Except.ok.inj e
  obtain rfl := topEntry_unique hr g3
  obtain rfl := topEntry_unique hlv g4
  have e1 : rate.show (textEnv F disk) = rateText := by cases wr <;> rfl
  have e2 : lava.show (textEnv F disk) = lavaText := by cases wl <;> rfl
  rw [e1, e2] at g5
  exact g5.resolve_left hd

/-- **C103**. All three scripts look into the configuration first: one that holds a list, a number or a text instead of an object
    is an AttributeError, and nothing is run, drawn or written. -/
theorem C103_not_an_object (F : TextFormat α) (grid : List α) (fuel : ℕ) (jsonFile folder compare : String) (names : List String)
    (disk : List (String × List Char)) (text : List Char) (data : Json α) (hl : lookup disk (F.canon jsonFile) = some text)
    (ht : JsonText F.float (universal text) data) (hno : ∀ l, data ≠ .obj l) :
    mainRun grid fuel F jsonFile folder disk = some (.error .attributeError, disk) ∧
    mainPlot F folder names jsonFile disk = .error .attributeError ∧
    mainRunAndPlot grid fuel F jsonFile folder compare disk = some (.error .attributeError, disk) := by
  have hp : peekConfig F jsonFile disk = .error .attributeError := by
    unfold peekConfig
    rw [hl]
    dsimp only
    have hj : jsonLoad F.float text = .ok data := (jsonLoads_iff F.float _ data).mpr ht
    rw [hj, ok_bind]
    cases data with
    | obj l => exact absurd rfl (hno l)
    | _ => rfl
  have hm : mainRun grid fuel F jsonFile folder disk = some (.error .attributeError, disk) := by
    unfold mainRun
    rw [hp]
  refine ⟨hm, ?_, ?_⟩
  · unfold mainPlot
    rw [hp]
    rfl
  · unfold mainRunAndPlot
    rw [hm]

/-- **C103**, failures. A script that fails has left the disk as it was, or the run was complete and its result is on the disk:
    then only the drawing failed. -/
theorem C103_failures (F : TextFormat α) (grid : List α) (fuel : ℕ) (jsonFile folder compare : String) (hap : Apart F folder jsonFile)
    (disk d : List (String × List Char)) (e : Err) (h : mainRunAndPlot grid fuel F jsonFile folder compare disk = some (.error e, d)) :
    d = disk ∨ ∃ name, mainRun grid fuel F jsonFile folder disk = some (.ok name, d) ∧
      plotAllText F folder [name, compare] jsonFile d = .error e := by
  unfold mainRunAndPlot at h
  cases hm : mainRun grid fuel F jsonFile folder disk with
  | none => rw [hm] at h; cases h
  | some q =>
    obtain ⟨r, d'⟩ := q
    rw [hm] at h
    cases r with
    | ok name =>
      simp only [Option.some.injEq, Prod.mk.injEq] at h
      obtain ⟨h, rfl⟩ := h
      exact Or.inr ⟨name, rfl, h⟩
    | error e' =>
      simp only [Option.some.injEq, Prod.mk.injEq] at h
      obtain ⟨-, rfl⟩ := h
      left
      unfold mainRun at hm
      split at hm
      · simp only [Option.some.injEq, Prod.mk.injEq] at hm
        exact hm.2.symm
      · unfold runAndName at hm
        cases hr : runTextOn grid fuel F jsonFile folder disk with
        | none => rw [hr] at hm; cases hm
        | some q =>
          obtain ⟨r, d''⟩ := q
          rw [hr] at hm
          cases r with
          | error e'' =>
            simp only [Option.some.injEq, Prod.mk.injEq] at hm
            obtain ⟨-, rfl⟩ := hm
            exact run_text_failed F grid fuel jsonFile folder disk d'' e'' hr
          | ok u =>
            simp only [Option.some.injEq, Prod.mk.injEq] at hm
            obtain ⟨hm, rfl⟩ := hm
            obtain ⟨text, data, rate, lava, hl, hd, h1, h2, h3⟩ := run_text_wrote F grid fuel jsonFile folder disk d'' hr
            have hl' : lookup d'' (F.canon jsonFile) = some text := by
              rcases h3 with rfl | ⟨out, rfl⟩
              · exact hl
              · rw [lookup_cons_eq, if_neg (hap _ _), hl]
            rw [(fileName_iff F folder jsonFile disk d'' text data hl' hd _).mpr ⟨rate, lava, h1, h2, rfl⟩] at hm
            cases hm

end

/-- **C103**, the figure. When `main_run_and_plot_flowgo.py` ends normally the run has ended normally, and two sets of curves are
    drawn: the first is that of the file the run has just written -- or, if the run logged nothing, of an older file of that
    name, without a word; the second is that of the file to compare with. -/
theorem C103_figure (F : TextFormat ℝ) (grid : List ℝ) (fuel : ℕ) (jsonFile folder compare : String) (hap : Apart F folder jsonFile)
    (disk d : List (String × List Char)) (slope : List (ℝ × ℝ × ℝ)) (cs : List (List Char × PlotCurves ℝ))
    (h : mainRunAndPlot grid fuel F jsonFile folder compare disk = some (.ok (slope, cs), d)) :
    ∃ name c₁ c₂, mainRun grid fuel F jsonFile folder disk = some (.ok name, d) ∧
      cs = [(plotLabel folder name, c₁), (plotLabel folder compare, c₂)] ∧
      ((∃ out, d = (F.canon name, out) :: disk ∧ Drawn F [(F.canon name, out)] name c₁) ∨
        (d = disk ∧ Drawn F disk name c₁)) ∧
      Drawn F d compare c₂ ∧ (F.canon compare ≠ F.canon name → Drawn F disk compare c₂) := by
  unfold mainRunAndPlot at h
  cases hm : mainRun grid fuel F jsonFile folder disk with
  | none => rw [hm] at h; cases h
  | some q =>
    obtain ⟨r, d'⟩ := q
    rw [hm] at h
    cases r with
    | error e => simp at h
    | ok name =>
      simp only [Option.some.injEq, Prod.mk.injEq] at h
      obtain ⟨h, rfl⟩ := h
      obtain ⟨text, data, s, profile, _, _, _, _, _, hcs⟩ := (C91_plot_all_results F folder _ jsonFile d' slope cs).mp h
      cases hcs with
      | cons h1 hcs =>
        cases hcs with
        | cons h2 hcs =>
          cases hcs
          rename_i lc₁ lc₂
          obtain ⟨l₁, c₁⟩ := lc₁
          obtain ⟨l₂, c₂⟩ := lc₂
          obtain ⟨rfl, h1⟩ := h1
          obtain ⟨rfl, h2⟩ := h2
          obtain ⟨hr, _, _, _, _, _, _, _, _, _, hdd⟩ := (C103_main_run F grid fuel jsonFile folder hap disk d' name).mp hm
          refine ⟨name, c₁, c₂, rfl, rfl, ?_, h2, fun hne => ?_⟩
          · rcases hdd with rfl | ⟨out, rfl⟩
            · exact Or.inr ⟨rfl, h1⟩
            · obtain ⟨t, first, rest, hl, hrest⟩ := h1
              rw [lookup_cons_eq, if_pos rfl] at hl
              exact Or.inl ⟨out, rfl, t, first, rest, by rw [lookup_cons_eq, if_pos rfl]; exact hl, hrest⟩
          · rcases hdd with rfl | ⟨out, rfl⟩
            · exact h2
            · obtain ⟨t, first, rest, hl, hrest⟩ := h2
              rw [lookup_cons_eq, if_neg (fun e => hne e.symm)] at hl
              exact ⟨t, first, rest, hl, hrest⟩

/-- **C103**, what the first curves mean. If the run has written a result, its `i`-th point is the `(i+1)`-th row of that run: it lies
    `(i+1) dx` behind the vent, shows the printed values of the row, and consecutive rows obey the laws of the model. -/
theorem C103_curves_of_the_run (F : TextFormat ℝ) (rd : ℝ → ℝ) (hstr : ∀ c, F.float (F.str c) = some (rd c.value)) (hempty : F.float [] = none)
    (hcr : ∀ c, '\r' ∉ F.str c) (grid : List ℝ) (fuel : ℕ) (jsonFile folder compare : String) (hap : Apart F folder jsonFile)
    (disk d : List (String × List Char)) (hd : d ≠ disk) (slope : List (ℝ × ℝ × ℝ)) (cs : List (List Char × PlotCurves ℝ))
    (h : mainRunAndPlot grid fuel F jsonFile folder compare disk = some (.ok (slope, cs), d)) :
    ∃ name c other, cs = [(plotLabel folder name, c), other] ∧
    ∃ text data x0 phi0 T0 dx L size, lookup disk (F.canon jsonFile) = some text ∧ JsonText F.float (universal text) data ∧
      NumberAt (textEnv F disk) data "lava_state" "position" x0 ∧
      NumberAt (textEnv F disk) data "lava_state" "crystal_fraction" phi0 ∧
      NumberAt (textEnv F disk) data "eruption_condition" "eruption_temperature" T0 ∧
      NumberAt (textEnv F disk) data "crystals_parameters" "latent_heat_of_crystallization" L ∧
      TopEntry data "step_size" size ∧ size.toFloat (textEnv F disk) = .ok dx ∧
      (0 < dx → ∃ r : ℕ → ProfileRow, 2 ≤ c.distance.length ∧ (r 0).crystal = phi0 ∧ (r 0).temp = T0 ∧
        (∀ i, i < c.distance.length → PointShows rd c i (x0 + ((i + 1 : ℕ) : ℝ) * dx) (r (i + 1))) ∧
        (∀ i, i < c.distance.length → RowLaws L dx (r i) (r (i + 1)))) := by
  obtain ⟨name, c₁, c₂, hm, rfl, hdraw, _⟩ := C103_figure F grid fuel jsonFile folder compare hap disk d slope cs h
  rcases hdraw with ⟨out, rfl, t, first, rest, hl, hread, hlen, hrate, hc⟩ | ⟨h, _⟩
  · rw [lookup_cons_eq, if_pos rfl] at hl
    obtain rfl := Option.some.inj hl
    refine ⟨name, c₁, _, rfl, ?_⟩
    exact C91_figure_of_a_run F rd hstr hempty hcr grid fuel jsonFile folder _ disk out
      ((C103_main_run F grid fuel jsonFile folder hap disk _ name).mp hm).1 false true c₁
      ((C91_curves_of_a_text false true out c₁).mpr ⟨first, rest, hread, hlen, hrate, hc, rfl⟩)
  · exact absurd h hd

/-- **C103**. An old result is drawn if the run logs nothing: the script does what it would do without a run. -/
theorem C103_silent_run (F : TextFormat ℝ) (grid : List ℝ) (fuel : ℕ) (jsonFile folder compare : String) (hap : Apart F folder jsonFile)
    (disk : List (String × List Char)) (h : runTextOn grid fuel F jsonFile folder disk = some (.ok (), disk)) :
    ∃ name, mainRun grid fuel F jsonFile folder disk = some (.ok name, disk) ∧
      mainRunAndPlot grid fuel F jsonFile folder compare disk = some (plotAllText F folder [name, compare] jsonFile disk, disk) := by
  obtain ⟨text, data, rate, lava, hl, hd, h1, h2, _⟩ := run_text_wrote F grid fuel jsonFile folder disk disk h
  have hm := (C103_main_run F grid fuel jsonFile folder hap disk disk _).mpr ⟨h, text, data, rate, lava, hl, hd, h1, h2, rfl, Or.inl rfl⟩
  refine ⟨_, hm, ?_⟩
  unfold mainRunAndPlot
  rw [hm]

/-- **C103**. `main_plot_flowgo_results.py` ends normally exactly when the configuration is readable and names a readable slope
    profile, and every listed result can be drawn; it draws them in the order they are listed. -/
theorem C103_main_plot (F : TextFormat ℝ) (folder : String) (names : List String) (jsonFile : String) (disk : List (String × List Char))
    (slope : List (ℝ × ℝ × ℝ)) (cs : List (List Char × PlotCurves ℝ)) :
    mainPlot F folder names jsonFile disk = .ok (slope, cs) ↔
      ∃ text data s profile, lookup disk (F.canon jsonFile) = some text ∧ JsonText F.float (universal text) data ∧
        TopEntry data "slope_file" (.str s) ∧ lookup disk (F.canon s) = some profile ∧
        ProfileSamples F.float (dataLines profile) slope ∧
        List.Forall₂ (fun name lc => lc.1 = plotLabel folder name ∧ Drawn F disk name lc.2) names cs := by
  rw [← C91_plot_all_results F folder names jsonFile disk slope cs]
  unfold mainPlot
  rw [bind_ok_iff]
  constructor
  · rintro ⟨_, _, h⟩
    exact h
  · intro h
    obtain ⟨text, data, s, profile, hl, hd, ⟨top, rfl, _⟩, _⟩ := (C91_plot_all_results F folder names jsonFile disk slope cs).mp h
    refine ⟨(), ?_, h⟩
    unfold peekConfig
    rw [hl]
    dsimp only
    rw [show jsonLoad F.float text = .ok _ from (jsonLoads_iff F.float _ _).mpr hd, ok_bind]
    rfl

end PyFlowGo
