import Verif.Props.CaseStudies
/-
  C104: the results of the runs the case studies start, and the labels.
-/
set_option linter.unusedSectionVars false
namespace PyFlowGo
open Spec

section
variable {α : Type} [Add α] [Sub α] [Mul α] [Neg α] [OfScientific α] [PyNum α]

/-- Run and name of the result: as `main_run_flowgo.py`. -/
theorem runAndName_iff (F : TextFormat α) (grid : List α) (fuel : ℕ) (jsonFile folder : String) (hap : Apart F folder jsonFile)
    (disk d : List (String × List Char)) (name : String) :
    runAndName grid fuel F jsonFile folder disk = some (.ok name, d) ↔
      runTextOn grid fuel F jsonFile folder disk = some (.ok (), d) ∧
      ∃ text data rate lava, lookup disk (F.canon jsonFile) = some text ∧ JsonText F.float (universal text) data ∧
        TopEntry data "effusion_rate_init" rate ∧ TopEntry data "lava_name" lava ∧
        name = resultFileName folder (lava.show (textEnv F disk)) (rate.show (textEnv F disk)) ∧
        (d = disk ∨ ∃ out, d = (F.canon name, out) :: disk) := by
  rw [← C103_main_run F grid fuel jsonFile folder hap disk d name]
  have peek : ∀ text data top, lookup disk (F.canon jsonFile) = some text → JsonText F.float (universal text) data → data = .obj top →
      mainRun grid fuel F jsonFile folder disk = runAndName grid fuel F jsonFile folder disk := by
    rintro text data top hl hd rfl
    unfold mainRun peekConfig
    rw [hl]
    dsimp only
    rw [show jsonLoad F.float text = .ok _ from (jsonLoads_iff F.float _ _).mpr hd, ok_bind]
    rfl
  constructor
  · intro h
    have hrun : runTextOn grid fuel F jsonFile folder disk = some (.ok (), d) := by
      unfold runAndName at h
      split at h
      · cases h
      · cases h
      · rename_i u d' hr
        simp only [Option.some.injEq, Prod.mk.injEq] at h
        rw [hr, h.2]
    obtain ⟨text, data, rate, lava, hl, hd, ⟨top, htop, _⟩, _⟩ := run_text_wrote F grid fuel jsonFile folder disk d hrun
    rw [peek text data top hl hd htop]
    exact h
  · intro h
    obtain ⟨_, text, data, rate, lava, hl, hd, ⟨top, htop, _⟩, _⟩ := (C103_main_run F grid fuel jsonFile folder hap disk d name).mp h
    rw [← peek text data top hl hd htop]
    exact h

end

/-- **C104**. The first result the scripts draw is the one the run has just written, or, if the run logged nothing, whatever file had
    that name before; every other file is read as it was before the run, unless it is the result itself. -/
theorem C104_own_result (F : TextFormat ℝ) (grid : List ℝ) (fuel : ℕ) (jsonFile folder : String) (hap : Apart F folder jsonFile)
    (disk d : List (String × List Char)) (name : String) (h : runAndName grid fuel F jsonFile folder disk = some (.ok name, d)) :
    runTextOn grid fuel F jsonFile folder disk = some (.ok (), d) ∧
    (d = disk ∨ ∃ out, d = (F.canon name, out) :: disk ∧ (∀ c, VenusDrawn F d name c ↔ venusResult F.float out = .ok c) ∧
      ∀ c, FieldDrawn F d name c ↔ fieldResult F.float out = .ok c) ∧
    ∀ path, F.canon path ≠ F.canon name → lookup d (F.canon path) = lookup disk (F.canon path) := by
  obtain ⟨hr, _, _, _, _, _, _, _, _, _, hd⟩ := (runAndName_iff F grid fuel jsonFile folder hap disk d name).mp h
  refine ⟨hr, ?_, fun path hp => ?_⟩
  · rcases hd with rfl | ⟨out, rfl⟩
    · exact Or.inl rfl
    · refine Or.inr ⟨out, rfl, fun c => ?_, fun c => ?_⟩
      · rw [C104_venus_curves_of_a_text]
        unfold VenusDrawn
        rw [lookup_cons_eq, if_pos rfl]
        constructor
        · rintro ⟨text, lines, e, h⟩; cases e; exact ⟨lines, h⟩
        · rintro ⟨lines, h⟩; exact ⟨out, lines, rfl, h⟩
      · rw [C93_curves_of_a_text]
        unfold FieldDrawn
        rw [lookup_cons_eq, if_pos rfl]
        constructor
        · rintro ⟨text, lines, e, h⟩; cases e; exact ⟨lines, h⟩
        · rintro ⟨lines, h⟩; exact ⟨out, lines, rfl, h⟩
  · rcases hd with rfl | ⟨out, rfl⟩
    · rfl
    · rw [lookup_cons_eq, if_neg (fun e => hp e.symm)]

/-- **C104**. Both scripts need the same of a run: conduction and, besides, either the Snyder model or both forced convection and a
    radiation model. The two columns of the Snyder model come with any of these. -/
theorem C104_columns_of_a_run (g : Integrator ℝ) :
    (∀ name ∈ venusColumns, name ∈ runColumns g) ↔
      (∃ k d, .conduction k d ∈ g.models.fluxes) ∧
      (.snyder ∈ g.models.fluxes ∨ .convection ∈ g.models.fluxes ∧ ∃ f ∈ g.models.fluxes, f.radiates = true) := by
  rw [← C93_columns_of_a_run]
  constructor
  · exact fun h name hn => h name (List.mem_append_left _ hn)
  · intro h name hn
    rcases List.mem_append.mp hn with hn | hn
    · exact h name hn
    · obtain ⟨_, hs⟩ := (C93_columns_of_a_run g).mp h
      have hcol : ∀ c : String, c ∈ fluxColumns g.models.fluxes → c ∈ runColumns g := by
        intro c hc
        unfold runColumns
        rw [List.mem_cons, List.mem_append, List.mem_append]
        exact Or.inr (Or.inl (Or.inl hc))
      apply hcol
      rw [flux_column]
      simp only [List.mem_cons, List.not_mem_nil, or_false] at hn
      rcases hs with hs | ⟨hs, _⟩ <;> refine ⟨_, hs, ?_⟩ <;> rcases hn with rfl | rfl
      · exact Or.inl (by decide)
      · exact Or.inr rfl
      · exact Or.inl (by decide)
      · exact Or.inl (by decide)

/-- **C104**, for a result file written by this package: the Venus script can draw it exactly when it has at least two rows and every
    row has all twenty-two columns. -/
theorem C104_result_of_a_log (F : TextFormat ℝ) (rd : ℝ → ℝ) (hstr : ∀ c, F.float (F.str c) = some (rd c.value)) (hempty : F.float [] = none)
    (hcr : ∀ c, '\r' ∉ F.str c) (log : Log (Cell ℝ)) (t : CsvTable (Cell ℝ)) (ht : writeValues log = .ok (some t))
    (hh : t.header ≠ []) (hn : ∀ n ∈ t.header, '\r' ∉ n.toList) :
    (∃ c, venusResult F.float (stored F.windows (t.text F.str)) = .ok c) ↔
      2 ≤ log.length ∧ ∀ name ∈ venusColumns, ∀ r ∈ log, name ∈ r.keys := by
  obtain ⟨r0, rest, e, hsub, hdd⟩ := dicts_of_log ht
  have hhead : t.header = r0.keys := by
    obtain ⟨r0', rest', e', h⟩ := writeValues_header ht
    rw [e, List.cons.injEq] at e'
    rw [h, e'.1]
  have hdict : dictRead ',' (stored F.windows (t.text F.str)) = .ok (log.map (lineOf F.str r0.keys)) := by
    rw [C74_result_file _ t ht F.str hh hn hcr F.windows, hhead]
    rfl
  have hmem : ∀ name, ∀ r ∈ log, (∃ x, dictFloat F.float (lineOf F.str r0.keys r) name = .ok x) ↔ name ∈ r.keys := by
    intro name r hr
    simp only [lineOf_float hstr hempty (hsub r hr)]
    constructor
    · rintro ⟨x, hx⟩
      rw [← roundRow_keys rd]; exact mem_of_shows hx
    · intro h
      exact shows_of_mem (by rw [roundRow_keys]; exact h)
  constructor
  · rintro ⟨c, hc⟩
    obtain ⟨lines, hd, h2, hcv⟩ := (C104_venus_curves_of_a_text _ _).mp hc
    rw [hdict, Except.ok.injEq] at hd
    subst hd
    refine ⟨by simpa using h2, fun name hn r hr => ?_⟩
    exact (hmem name r hr).mp (hcv.readable name hn _ (List.mem_map_of_mem hr))
  · rintro ⟨h2, hall⟩
    have hrows : ∃ rows, (log.map (lineOf F.str r0.keys)).mapM (readVenusRow F.float) = .ok rows := by
      rw [mapM_exists]
      intro line hl
      obtain ⟨r, hr, rfl⟩ := List.mem_map.mp hl
      obtain ⟨p, hp⟩ := fieldLine_of_all F.float fun name hn => (hmem name r hr).mpr (hall name (List.mem_append_left _ hn) r hr)
      obtain ⟨a, ha⟩ := (hmem "effective_temperature_snyder" r hr).mpr (hall _ (by decide) r hr)
      obtain ⟨b, hb⟩ := (hmem "flowgofluxsnyderheat" r hr).mpr (hall _ (by decide) r hr)
      exact ⟨⟨p, a, b⟩, (readVenusRow_iff _ _).mpr ⟨hp, ha, hb⟩⟩
    exact venus_of_rows hdict hrows (by simpa using h2)

/-- What the `i`-th point of the Venus curves shows. -/
structure VenusShows (rd : ℝ → ℝ) (c : VenusCurves ℝ) (i : ℕ) (p : ℝ) (r : ProfileRow) : Prop where
  distance : c.distance[i]? = some (rd p)
  temperature : c.temperature[i]? = some (rd r.temp)
  velocity : c.velocity[i]? = some (rd r.velocity)
  yieldStrength : c.yieldStrength[i]? = some (rd r.yieldStrength)
  width : c.width[i]? = some (rd r.width)
  crystal : c.crystal[i]? = some (rd r.crystal)
  slope : c.slope[i]? = some (inDegrees (rd r.slope))

/-- **C104**, the run in the Venus figure. If the result of a run can be drawn, its curves have one point per position x0, x0 + dx, …,
    the vent included, and the points show, as far as numbers are printed, a profile starting at the configured state and obeying the
    laws of the flow from one point to the next. -/
theorem C104_venus_figure_of_a_run (F : TextFormat ℝ) (rd : ℝ → ℝ) (hstr : ∀ c, F.float (F.str c) = some (rd c.value)) (hempty : F.float [] = none)
    (hcr : ∀ c, '\r' ∉ F.str c) (grid : List ℝ) (fuel : Nat) (jsonFile folder name : String) (disk : List (String × List Char))
    (out : List Char) (h : runTextOn grid fuel F jsonFile folder disk = some (.ok (), (name, out) :: disk))
    (c : VenusCurves ℝ) (hc : venusResult F.float out = .ok c) :
    ∃ text data x0 phi0 T0 dx L size, lookup disk (F.canon jsonFile) = some text ∧ JsonText F.float (universal text) data ∧
      NumberAt (textEnv F disk) data "lava_state" "position" x0 ∧
      NumberAt (textEnv F disk) data "lava_state" "crystal_fraction" phi0 ∧
      NumberAt (textEnv F disk) data "eruption_condition" "eruption_temperature" T0 ∧
      NumberAt (textEnv F disk) data "crystals_parameters" "latent_heat_of_crystallization" L ∧
      TopEntry data "step_size" size ∧ size.toFloat (textEnv F disk) = .ok dx ∧
      (0 < dx → ∃ r : ℕ → ProfileRow, 2 ≤ c.distance.length ∧ (r 0).crystal = phi0 ∧ (r 0).temp = T0 ∧
        (∀ i, i < c.distance.length → VenusShows rd c i (x0 + (i : ℝ) * dx) (r i)) ∧
        (∀ i, i + 1 < c.distance.length → RowLaws L dx (r i) (r (i + 1)))) := by
  obtain ⟨text, data, h1, h2, x0, phi0, T0, dx, L, length, lavaName, rate, size, t1, k1, k2, k3, k4, _, k6, k7, _, _, _, h6⟩ :=
    C81_run_on_texts F rd hstr hcr grid fuel jsonFile folder disk _ h
  refine ⟨text, data, x0, phi0, T0, dx, L, size, h1, h2, k1, k2, k3, k4, k6, k7, fun hdx => ?_⟩
  rcases h6 hdx with e | ⟨out', lines, k, r, _, _, e, hd, hk, _, hshow, _, _, hstart, hlaws⟩
  · exact absurd (congrArg List.length e) (by simp)
  rw [List.cons.injEq, Prod.mk.injEq] at e
  obtain ⟨⟨_, rfl⟩, _⟩ := e
  obtain ⟨lines', hd', hl2, hcurves⟩ := (C104_venus_curves_of_a_text out c).mp hc
  rw [hd, Except.ok.injEq] at hd'
  subst hd'
  have hlen : c.distance.length = lines.length := (List.Forall₂.length_eq hcurves.distance).symm
  have hkl : lines.length = k := by
    rcases hk with hk | ⟨hk, last, hlast, hb, _⟩
    · exact hk
    · exfalso
      obtain ⟨x, hx⟩ := curveIn_mem hcurves.slope last (List.mem_of_getElem? hlast)
      exact blank_no_float hempty hb x hx
  obtain ⟨s1, s2⟩ := hstart (by omega)
  refine ⟨r, by omega, s1, s2, fun i hi => ?_, fun i hi => (hlaws i (by omega)).1⟩
  have hr : lines[i]? = some lines[i] := List.getElem?_eq_getElem (by omega)
  have hs := hshow i _ (by omega) hr
  exact ⟨curveIn_get hcurves.distance hr hs.position, curveIn_get hcurves.temperature hr hs.temp, curveIn_get hcurves.velocity hr hs.velocity,
    curveIn_get hcurves.yieldStrength hr hs.yieldStrength, curveIn_get hcurves.width hr hs.width, curveIn_get hcurves.crystal hr hs.crystal,
    curveIn_get hcurves.slope hr hs.slope⟩

/-! ### Labels -/

/-- Two characters sets off the ends, one after the other. -/
theorem strip_result (chars : List Char) (a lava rate : List Char) (ha : ∀ c ∈ a, c ∈ chars) (hv : 'v' ∉ chars)
    (hne : lava ≠ []) (hh : ∀ c ∈ lava.head?, c ∉ chars ∧ c ∉ ".csv".toList) :
    stripChars ".csv".toList (stripChars chars (a ++ (lava ++ "_".toList ++ rate ++ "m3s.csv".toList))) = lava ++ "_".toList ++ rate ++ "m3".toList := by
  have hhead : ∀ t, (lava ++ t).head? = lava.head? := by
    intro t; cases lava with
    | nil => exact absurd rfl hne
    | cons c l => rfl
  have e1 := stripChars_spec chars a [] (lava ++ "_".toList ++ rate ++ "m3s.csv".toList) ha (by simp)
    (by intro c hc; rw [List.append_assoc, List.append_assoc, hhead] at hc; exact (hh c hc).1)
    (by
      intro c hc
      rw [show "m3s.csv".toList = "m3s.cs".toList ++ ['v'] by decide, ← List.append_assoc, List.getLast?_concat] at hc
      cases hc; exact hv)
  rw [List.append_nil] at e1
  rw [e1]
  have e2 := stripChars_spec ".csv".toList [] "s.csv".toList (lava ++ "_".toList ++ rate ++ "m3".toList) (by simp) (by decide)
    (by intro c hc; rw [List.append_assoc, List.append_assoc, hhead] at hc; exact (hh c hc).2)
    (by
      intro c hc
      rw [show "m3".toList = "m".toList ++ ['3'] by decide, ← List.append_assoc, List.getLast?_concat] at hc
      cases hc; decide)
  rw [List.nil_append] at e2
  rw [← e2]
  congr 1
  rw [show "m3s.csv".toList = "m3".toList ++ "s.csv".toList by decide, ← List.append_assoc]

/-- **C104**. The labels of the results of a run in the folder '': lava and effusion rate, if the name of the lava begins with none of
    the characters that `strip` takes away. -/
theorem C104_labels (lava rate : String) (hne : lava ≠ "") (hh : ∀ c ∈ lava.toList.head?, c ∉ ".results/results_flowgo_.csv".toList) :
    venusLabel (resultFileName "" lava rate) = (lava ++ "_" ++ rate ++ "m3").toList ∧
    maunaUluLabel (resultFileName "" lava rate) = (lava ++ "_" ++ rate ++ "m3").toList := by
  have hn : (resultFileName "" lava rate).toList = "results_flowgo_".toList ++ (lava.toList ++ "_".toList ++ rate.toList ++ "m3s.csv".toList) := by
    unfold resultFileName
    rw [pathJoin_rel _ _ (by simp)]
    simp [String.toList_append]
  have hne' : lava.toList ≠ [] := by simpa using hne
  unfold venusLabel maunaUluLabel
  rw [hn, String.toList_append, String.toList_append, String.toList_append]
  have sub : ∀ c, c ∉ ".results/results_flowgo_.csv".toList → c ∉ ".results/results_flowgo_".toList ∧ c ∉ "results/results_flowgo_".toList ∧ c ∉ ".csv".toList := by
    intro c hc
    rw [show ".results/results_flowgo_.csv".toList = ".results/results_flowgo_".toList ++ ".csv".toList by decide, List.mem_append, not_or] at hc
    refine ⟨hc.1, fun h => hc.1 ?_, hc.2⟩
    rw [show ".results/results_flowgo_".toList = '.' :: "results/results_flowgo_".toList by decide]
    exact List.mem_cons_of_mem _ h
  refine ⟨strip_result _ _ _ _ (by decide) (by decide) hne' fun c hc => ?_, strip_result _ _ _ _ (by decide) (by decide) hne' fun c hc => ?_⟩
  · exact ⟨(sub c (hh c hc)).1, (sub c (hh c hc)).2.2⟩
  · exact (sub c (hh c hc)).2

/-- **C104**. Otherwise they are not: two lavas under one label, and the label of the file the Venus script compares with. -/
theorem C104_labels_collide :
    venusLabel "results_flowgo_etna_3m3s.csv" = venusLabel "results_flowgo_na_3m3s.csv" ∧
    maunaUluLabel "results_flowgo_etna_3m3s.csv" = maunaUluLabel "results_flowgo_na_3m3s.csv" ∧
    venusLabel "./results/results_flowgo_template_test_rad_lin_emi_700m3s.csv" = "mplate_test_rad_lin_emi_700m3".toList := by
  refine ⟨by decide, by decide, by decide⟩

/-- **C104**, non-vacuity: the lava of the Mauna Ulu study. -/
example : maunaUluLabel "results_flowgo_Mauna Ulu June 1974 Best fit_165m3s.csv" = "Mauna Ulu June 1974 Best fit_165m3".toList := by
  have := (C104_labels "Mauna Ulu June 1974 Best fit" "165" (by decide) (by decide)).2
  exact this

end PyFlowGo
