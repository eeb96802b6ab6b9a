import Verif.Props.FieldPlot
/-
  C93: the results of runs among field data, and the labels.
-/
set_option linter.unusedSectionVars false
namespace PyFlowGo
open Spec

/-- **C93**, for a result file written by this package: it can be drawn with field data exactly when it has at least two rows and
    every row has all twenty columns; each curve shows the rows in order, every number as it is read back from its printed form. -/
theorem C93_result_of_a_log (F : TextFormat ℝ) (rd : ℝ → ℝ) (hstr : ∀ c, F.float (F.str c) = some (rd c.value)) (hempty : F.float [] = none)
    (hcr : ∀ c, '\r' ∉ F.str c) (log : Log (Cell ℝ)) (t : CsvTable (Cell ℝ)) (ht : writeValues log = .ok (some t))
    (hh : t.header ≠ []) (hn : ∀ n ∈ t.header, '\r' ∉ n.toList) :
    ((∃ c, fieldResult F.float (stored F.windows (t.text F.str)) = .ok c) ↔
      2 ≤ log.length ∧ ∀ name ∈ fieldColumns, ∀ r ∈ log, name ∈ r.keys) ∧
    ∀ c, fieldResult F.float (stored F.windows (t.text F.str)) = .ok c →
      CurveOf (log.map (roundRow rd)) "position" id c.distance ∧
      CurveOf (log.map (roundRow rd)) "core_temperature" celsius c.temperature ∧
      CurveOf (log.map (roundRow rd)) "mean_velocity" id c.velocity ∧
      CurveOf (log.map (roundRow rd)) "channel_width" id c.width ∧
      CurveOf (log.map (roundRow rd)) "crystal_fraction" id c.crystal ∧
      CurveOf (log.map (roundRow rd)) "slope" inDegrees c.slope := by
  obtain ⟨r0, rest, e, hsub, hdd⟩ := dicts_of_log ht
  have hhead : t.header = r0.keys := by
    obtain ⟨r0', rest', e', h⟩ := writeValues_header ht
    rw [e, List.cons.injEq] at e'
    rw [h, e'.1]
  have hdict : dictRead ',' (stored F.windows (t.text F.str)) = .ok (log.map (lineOf F.str r0.keys)) := by
    rw [C74_result_file _ t ht F.str hh hn hcr F.windows, hhead]
    rfl
  have K : ∀ name f ys, CurveIn F.float (log.map (lineOf F.str r0.keys)) name f ys ↔ CurveOf (log.map (roundRow rd)) name f ys := by
    intro name f ys
    unfold CurveIn CurveOf
    rw [List.forall₂_map_left_iff, List.forall₂_map_left_iff]
    refine forall₂_congr_mem fun r hr y => ?_
    simp only [lineOf_float hstr hempty (hsub r hr)]
  have hmem : ∀ name, ∀ r ∈ log, (∃ x, dictFloat F.float (lineOf F.str r0.keys r) name = .ok x) ↔ name ∈ r.keys := by
    intro name r hr
    simp only [lineOf_float hstr hempty (hsub r hr)]
    constructor
    · rintro ⟨x, hx⟩
      rw [← roundRow_keys rd]; exact mem_of_shows hx
    · intro h
      exact shows_of_mem (by rw [roundRow_keys]; exact h)
  have hread : (∃ c, fieldResult F.float (stored F.windows (t.text F.str)) = .ok c) ↔
      2 ≤ log.length ∧ ∀ name ∈ fieldColumns, ∀ r ∈ log, name ∈ r.keys := by
    constructor
    · rintro ⟨c, hc⟩
      obtain ⟨lines, hd, h2, hcv⟩ := (C93_curves_of_a_text _ _).mp hc
      rw [hdict, Except.ok.injEq] at hd
      subst hd
      refine ⟨by simpa using h2, fun name hn r hr => ?_⟩
      exact (hmem name r hr).mp (hcv.readable name hn _ (List.mem_map_of_mem hr))
    · rintro ⟨h2, hall⟩
      have hrows : ∃ rows, (log.map (lineOf F.str r0.keys)).mapM (readFieldRow F.float) = .ok rows := by
        rw [mapM_exists]
        intro line hl
        obtain ⟨r, hr, rfl⟩ := List.mem_map.mp hl
        obtain ⟨p, hp⟩ := fieldLine_of_all F.float fun name hn => (hmem name r hr).mpr (hall name hn r hr)
        exact ⟨p, (readFieldRow_iff _ _ _).mpr hp⟩
      exact field_of_rows hdict hrows (by simpa using h2)
  refine ⟨hread, fun c hc => ?_⟩
  obtain ⟨lines, hd, h2, hcv⟩ := (C93_curves_of_a_text _ _).mp hc
  rw [hdict, Except.ok.injEq] at hd
  subst hd
  exact ⟨(K _ _ _).mp hcv.distance, (K _ _ _).mp hcv.temperature, (K _ _ _).mp hcv.velocity, (K _ _ _).mp hcv.width,
    (K _ _ _).mp hcv.crystal, (K _ _ _).mp hcv.slope⟩

def Flux.radiates : Flux ℝ → Bool
  | .radBasic _ _ | .radTwoEmi _ _ _ | .radCont _ | .radLin _ => true
  | _ => false

theorem flux_column (fs : List (Flux ℝ)) (c : String) : c ∈ fluxColumns fs ↔ ∃ f ∈ fs, c ∈ f.columns ∨ c = f.logName := by
  induction fs with
  | nil => simp [fluxColumns]
  | cons f rest ih =>
    simp only [fluxColumns, List.mem_append, List.mem_cons, ih, exists_eq_or_imp]
    rw [or_assoc]
    constructor
    · rintro (h | h)
      · exact Or.inl h
      · exact h
    · exact Or.inr

/-- **C93**. The columns of a run are those the field plot needs exactly when the heat balance has conduction and, besides, either the
    Snyder model or both forced convection and a radiation model. -/
theorem C93_columns_of_a_run (g : Integrator ℝ) :
    (∀ name ∈ fieldColumns, name ∈ runColumns g) ↔
      (∃ k d, .conduction k d ∈ g.models.fluxes) ∧
      (.snyder ∈ g.models.fluxes ∨ .convection ∈ g.models.fluxes ∧ ∃ f ∈ g.models.fluxes, f.radiates = true) := by
  have hcol : ∀ c : String, c ≠ "position" → c ≠ "heat_budget" → c ∉ stepColumns → (c ∈ runColumns g ↔ c ∈ fluxColumns g.models.fluxes) := by
    intro c h1 h2 h3
    unfold runColumns
    rw [List.mem_cons, List.mem_append, List.mem_append, List.mem_singleton]
    tauto
  have hcond : "flowgofluxconductionheat" ∈ runColumns g ↔ ∃ k d, .conduction k d ∈ g.models.fluxes := by
    rw [hcol _ (by decide) (by decide) (by decide), flux_column]
    constructor
    · rintro ⟨f, hf, h⟩
      cases f <;> simp [Flux.columns, Flux.logName] at h
      exact ⟨_, _, hf⟩
    · rintro ⟨k, d, h⟩
      exact ⟨_, h, Or.inr rfl⟩
  have hconv : "flowgofluxforcedconvectionheat" ∈ runColumns g ↔ .snyder ∈ g.models.fluxes ∨ .convection ∈ g.models.fluxes := by
    rw [hcol _ (by decide) (by decide) (by decide), flux_column]
    constructor
    · rintro ⟨f, hf, h⟩
      cases f <;> simp [Flux.columns, Flux.logName] at h
      · exact Or.inr hf
      · exact Or.inl hf
    · rintro (h | h)
      · exact ⟨_, h, Or.inl (by decide)⟩
      · exact ⟨_, h, Or.inr rfl⟩
  have hrad : "flowgofluxradiationheat" ∈ runColumns g ↔ .snyder ∈ g.models.fluxes ∨ ∃ f ∈ g.models.fluxes, f.radiates = true := by
    rw [hcol _ (by decide) (by decide) (by decide), flux_column]
    constructor
    · rintro ⟨f, hf, h⟩
      cases f <;> simp [Flux.columns, Flux.logName] at h <;> first | exact Or.inl hf | exact Or.inr ⟨_, hf, rfl⟩
    · rintro (h | ⟨f, hf, hr⟩)
      · exact ⟨_, h, Or.inl (by decide)⟩
      · refine ⟨f, hf, ?_⟩
        cases f <;> simp [Flux.radiates] at hr <;> exact Or.inr rfl
  constructor
  · intro h
    have h1 := hcond.mp (h _ (by decide))
    have h2 := hconv.mp (h _ (by decide))
    have h3 := hrad.mp (h _ (by decide))
    tauto
  · rintro ⟨h1, h2⟩ name hn
    have hteff : "effective_radiation_temperature" ∈ runColumns g := by
      rw [hcol _ (by decide) (by decide) (by decide), flux_column]
      rcases h2 with h | ⟨_, f, hf, hr⟩
      · exact ⟨_, h, Or.inl (by decide)⟩
      · refine ⟨f, hf, Or.inl ?_⟩
        cases f <;> simp [Flux.radiates] at hr <;> simp [Flux.columns]
    have hsurf : "characteristic_surface_temperature" ∈ runColumns g := by
      rw [hcol _ (by decide) (by decide) (by decide), surface_column]
      tauto
    have hstep : ∀ c, c ∈ stepColumns → c ∈ runColumns g := by
      intro c hc
      unfold runColumns
      rw [List.mem_cons, List.mem_append]
      exact Or.inr (Or.inr hc)
    simp only [fieldColumns, List.mem_cons, List.not_mem_nil, or_false] at hn
    rcases hn with rfl | rfl | rfl | rfl | rfl | rfl | rfl | rfl | rfl | rfl | rfl | rfl | rfl | rfl | rfl | rfl | rfl | rfl | rfl | rfl
    · exact List.mem_cons_self
    · exact hstep _ (by decide)
    · exact hstep _ (by decide)
    · exact hstep _ (by decide)
    · exact hstep _ (by decide)
    · exact hstep _ (by decide)
    · exact hstep _ (by decide)
    · exact hstep _ (by decide)
    · exact hstep _ (by decide)
    · exact hstep _ (by decide)
    · exact hstep _ (by decide)
    · exact hstep _ (by decide)
    · exact hstep _ (by decide)
    · exact hstep _ (by decide)
    · exact hstep _ (by decide)
    · exact hsurf
    · exact hteff
    · exact hconv.mpr (by tauto)
    · exact hcond.mpr h1
    · exact hrad.mpr (by tauto)

/-- What the `i`-th point of the curves shows. -/
structure FieldShows (rd : ℝ → ℝ) (c : FieldCurves ℝ) (i : ℕ) (p : ℝ) (r : ProfileRow) : Prop where
  distance : c.distance[i]? = some (rd p)
  temperature : c.temperature[i]? = some (celsius (rd r.temp))
  velocity : c.velocity[i]? = some (rd r.velocity)
  yieldStrength : c.yieldStrength[i]? = some (rd r.yieldStrength)
  width : c.width[i]? = some (rd r.width)
  crystal : c.crystal[i]? = some (rd r.crystal)
  slope : c.slope[i]? = some (inDegrees (rd r.slope))

/-- **C93**, a run among field data. If the result of a run can be drawn, its curves have one point per position x0, x0 + dx, …, the
    vent included, and the points show, as far as numbers are printed, a profile starting at the configured state and obeying the laws of the flow from
    one point to the next. -/
theorem C93_figure_of_a_run (F : TextFormat ℝ) (rd : ℝ → ℝ) (hstr : ∀ c, F.float (F.str c) = some (rd c.value)) (hempty : F.float [] = none)
    (hcr : ∀ c, '\r' ∉ F.str c) (grid : List ℝ) (fuel : Nat) (jsonFile folder name : String) (disk : List (String × List Char))
    (out : List Char) (h : runTextOn grid fuel F jsonFile folder disk = some (.ok (), (name, out) :: disk))
    (c : FieldCurves ℝ) (hc : fieldResult F.float out = .ok c) :
    ∃ text data x0 phi0 T0 dx L size, lookup disk (F.canon jsonFile) = some text ∧ JsonText F.float (universal text) data ∧
      NumberAt (textEnv F disk) data "lava_state" "position" x0 ∧
      NumberAt (textEnv F disk) data "lava_state" "crystal_fraction" phi0 ∧
      NumberAt (textEnv F disk) data "eruption_condition" "eruption_temperature" T0 ∧
      NumberAt (textEnv F disk) data "crystals_parameters" "latent_heat_of_crystallization" L ∧
      TopEntry data "step_size" size ∧ size.toFloat (textEnv F disk) = .ok dx ∧
      (0 < dx → ∃ r : ℕ → ProfileRow, 2 ≤ c.distance.length ∧ (r 0).crystal = phi0 ∧ (r 0).temp = T0 ∧
        (∀ i, i < c.distance.length → FieldShows rd c i (x0 + (i : ℝ) * dx) (r i)) ∧
        (∀ i, i + 1 < c.distance.length → RowLaws L dx (r i) (r (i + 1)))) := by
  obtain ⟨text, data, h1, h2, x0, phi0, T0, dx, L, length, lavaName, rate, size, t1, k1, k2, k3, k4, _, k6, k7, _, _, _, h6⟩ :=
    C81_run_on_texts F rd hstr hcr grid fuel jsonFile folder disk _ h
  refine ⟨text, data, x0, phi0, T0, dx, L, size, h1, h2, k1, k2, k3, k4, k6, k7, fun hdx => ?_⟩
  rcases h6 hdx with e | ⟨out', lines, k, r, _, _, e, hd, hk, _, hshow, _, _, hstart, hlaws⟩
  · exact absurd (congrArg List.length e) (by simp)
  rw [List.cons.injEq, Prod.mk.injEq] at e
  obtain ⟨⟨_, rfl⟩, _⟩ := e
  obtain ⟨lines', hd', hl2, hcurves⟩ := (C93_curves_of_a_text out c).mp hc
  rw [hd, Except.ok.injEq] at hd'
  subst hd'
  have hlen : c.distance.length = lines.length := (List.Forall₂.length_eq hcurves.distance).symm
  have hkl : lines.length = k := by
    rcases hk with hk | ⟨hk, last, hlast, hb, _⟩
    · exact hk
    · exfalso
      obtain ⟨x, hx⟩ := curveIn_mem hcurves.slope last (List.mem_of_getElem? hlast)
      exact blank_no_float hempty hb x hx
  obtain ⟨s1, s2⟩ := hstart (by omega)
  refine ⟨r, by omega, s1, s2, fun i hi => ?_, fun i hi => (hlaws i (by omega)).1⟩
  have hr : lines[i]? = some lines[i] := List.getElem?_eq_getElem (by omega)
  have hs := hshow i _ (by omega) hr
  exact ⟨curveIn_get hcurves.distance hr hs.position, curveIn_get hcurves.temperature hr hs.temp, curveIn_get hcurves.velocity hr hs.velocity,
    curveIn_get hcurves.yieldStrength hr hs.yieldStrength, curveIn_get hcurves.width hr hs.width, curveIn_get hcurves.crystal hr hs.crystal,
    curveIn_get hcurves.slope hr hs.slope⟩

/-! ### Labels -/

theorem dropWhile_all {p : Char → Bool} (l s : List Char) (h : ∀ c ∈ l, p c = true) : (l ++ s).dropWhile p = s.dropWhile p := by
  induction l with
  | nil => rfl
  | cons c l ih =>
    rw [List.cons_append, List.dropWhile_cons_of_pos (h c (by simp))]
    exact ih fun d hd => h d (List.mem_cons_of_mem _ hd)

/-- `strip` takes characters off the ends, not a suffix. -/
theorem stripChars_spec (chars a b s : List Char) (ha : ∀ c ∈ a, c ∈ chars) (hb : ∀ c ∈ b, c ∈ chars) (hh : ∀ c ∈ s.head?, c ∉ chars)
    (hl : ∀ c ∈ s.getLast?, c ∉ chars) : stripChars chars (a ++ s ++ b) = s := by
  unfold stripChars
  have key : ∀ l : List Char, (∀ c ∈ l.head?, c ∉ chars) → l.dropWhile (chars.contains ·) = l := by
    intro l hl
    cases l with
    | nil => rfl
    | cons c l =>
      rw [List.dropWhile_cons_of_neg]
      simpa using hl c (by simp)
  have all : ∀ l : List Char, (∀ c ∈ l, c ∈ chars) → l.dropWhile (chars.contains ·) = [] := by
    intro l hl
    have := dropWhile_all (p := (chars.contains ·)) l [] (by simpa using hl)
    rwa [List.append_nil] at this
  cases s with
  | nil =>
    rw [List.append_nil, all (a ++ b) (by intro c hc; rcases List.mem_append.mp hc with h | h; exacts [ha c h, hb c h])]
    rfl
  | cons x s =>
    have h1 : (a ++ x :: s ++ b).dropWhile (chars.contains ·) = x :: s ++ b := by
      rw [List.append_assoc, dropWhile_all _ _ (by simpa using ha)]
      exact key _ (by simpa using hh)
    have h2 : ((x :: s ++ b).reverse).dropWhile (chars.contains ·) = (x :: s).reverse := by
      rw [List.reverse_append, dropWhile_all _ _ (by simpa using hb)]
      exact key _ (by rw [List.head?_reverse]; exact hl)
    rw [h1, h2, List.reverse_reverse]

/-- **C93**. The label is not the name of the result: "results_" is dropped everywhere, and characters of ".csv" are taken off both ends.
    For a result of a run in the folder `./results_flowgo` the dot in front goes, and so does the s of "m3s". -/
theorem C93_label_of_a_result (lava rate : String)
    (hl : ¬ "results_".toList <:+: ("flowgo_" ++ lava ++ "_" ++ rate ++ "m3s.csv").toList) :
    fieldLabel ("./results_flowgo/results_flowgo_" ++ lava ++ "_" ++ rate ++ "m3s.csv") =
      ("/flowgo/flowgo_" ++ lava ++ "_" ++ rate ++ "m3").toList := by
  have step : ∀ (c : Char) (s : List Char), c ≠ 'r' → replaceChars "results_".toList [] 0 (c :: s) = c :: replaceChars "results_".toList [] 0 s := by
    intro c s hc
    rw [replaceChars, if_neg]
    rw [List.isPrefixOf_iff_prefix]
    rintro ⟨t, ht⟩
    exact hc (List.cons.inj ht).1.symm
  have hs : ("./results_flowgo/results_flowgo_" ++ lava ++ "_" ++ rate ++ "m3s.csv").toList =
      '.' :: '/' :: ("results_".toList ++ 'f' :: 'l' :: 'o' :: 'w' :: 'g' :: 'o' :: '/' ::
        ("results_".toList ++ ("flowgo_" ++ lava ++ "_" ++ rate ++ "m3s.csv").toList)) := by
    simp [String.toList_append]
  unfold fieldLabel
  rw [hs, step _ _ (by decide), step _ _ (by decide), replace_head _ _ _ (by decide), List.nil_append, step _ _ (by decide), step _ _ (by decide),
    step _ _ (by decide), step _ _ (by decide), step _ _ (by decide), step _ _ (by decide), step _ _ (by decide), replace_head _ _ _ (by decide),
    List.nil_append, replace_none _ _ _ hl]
  have e : '.' :: '/' :: 'f' :: 'l' :: 'o' :: 'w' :: 'g' :: 'o' :: '/' :: ("flowgo_" ++ lava ++ "_" ++ rate ++ "m3s.csv").toList =
      ['.'] ++ ("/flowgo/flowgo_" ++ lava ++ "_" ++ rate ++ "m3").toList ++ "s.csv".toList := by
    simp [String.toList_append]
  rw [e]
  apply stripChars_spec
  · decide
  · decide
  · simp [String.toList_append]
  · rw [String.toList_append, show "m3".toList = ['m'] ++ ['3'] from rfl, ← List.append_assoc, List.getLast?_concat]
    decide

/-- **C93**. Results of one lava at different effusion rates keep different labels. -/
theorem C93_labels_distinct (lava : String) (a b : Int)
    (ha : ¬ "results_".toList <:+: ("flowgo_" ++ lava ++ "_" ++ toString a ++ "m3s.csv").toList)
    (hb : ¬ "results_".toList <:+: ("flowgo_" ++ lava ++ "_" ++ toString b ++ "m3s.csv").toList)
    (h : fieldLabel ("./results_flowgo/results_flowgo_" ++ lava ++ "_" ++ toString a ++ "m3s.csv") =
      fieldLabel ("./results_flowgo/results_flowgo_" ++ lava ++ "_" ++ toString b ++ "m3s.csv")) : a = b := by
  rw [C93_label_of_a_result _ _ ha, C93_label_of_a_result _ _ hb] at h
  simp only [String.toList_append] at h
  exact toString_int_inj (String.toList_injective (List.append_cancel_left (List.append_cancel_right h)))

/-- **C93**. But not all results do: two files of the same folder under one label. -/
theorem C93_labels_collide : "etna_v.csv" ≠ "etna_s.csv" ∧ fieldLabel "etna_v.csv" = "etna_".toList ∧ fieldLabel "etna_s.csv" = "etna_".toList := by
  refine ⟨by decide, by decide, by decide⟩

/-- **C93**, non-vacuity: the path written in the script. -/
example : fieldLabel "./results_flowgo/results_flowgo_template2_10m3s.csv" = "/flowgo/flowgo_template2_10m3".toList := by
  exact C93_label_of_a_result "template2" "10" (by decide)

end PyFlowGo
