import Verif.Props.PlotText
/-
  C91: the figure of a run, of several files, and the labels of the curves.
-/
set_option linter.unusedSectionVars false
namespace PyFlowGo
open Spec

theorem blank_no_float {pf : List Char → Option ℝ} (hempty : pf [] = none) {line : List (List Char × Option (List Char))} {name : String}
    (h : Blank line name) (x : ℝ) : dictFloat pf line name ≠ .ok x := by
  unfold dictFloat
  rcases h with h | h
  · rw [h]; simp
  · rw [h, ok_bind]
    dsimp only
    rw [hempty]
    simp

theorem curveIn_get {pf : List Char → Option ℝ} {lines : List (List (List Char × Option (List Char)))} {name : String} {f : ℝ → ℝ} {ys : List ℝ}
    (h : CurveIn pf lines name f ys) {i : ℕ} {line : List (List Char × Option (List Char))} (hl : lines[i]? = some line) {x : ℝ}
    (hx : dictFloat pf line name = .ok x) : ys[i]? = some (f x) := by
  obtain ⟨hlen, hg⟩ := List.forall₂_iff_get.mp h
  obtain ⟨hi, rfl⟩ := List.getElem?_eq_some_iff.mp hl
  obtain ⟨y, hy, e⟩ := hg i hi (by omega)
  rw [List.get_eq_getElem, hx] at hy
  cases hy
  rw [List.getElem?_eq_getElem (by omega)]
  simpa using e

/-- What the `i`-th point of the curves shows. -/
structure PointShows (rd : ℝ → ℝ) (c : PlotCurves ℝ) (i : ℕ) (p : ℝ) (r : ProfileRow) : Prop where
  distance : c.distance[i]? = some (rd p)
  temperature : c.temperature[i]? = some (celsius (rd r.temp))
  velocity : c.velocity[i]? = some (rd r.velocity)
  yieldStrength : c.yieldStrength[i]? = some (rd r.yieldStrength)
  width : c.width[i]? = some (rd r.width)
  crystal : c.crystal[i]? = some (rd r.crystal)
  slope : c.slope[i]? = some (inDegrees (rd r.slope))

/-- **C91**, the figure of a run. If the result of a run can be drawn, its curves have one point per position x0 + dx, x0 + 2 dx,
    … (the vent itself is not drawn), and the points show, as far as numbers are printed, a profile starting at the
    configured state and obeying the laws of the flow from one point to the next. -/
theorem C91_figure_of_a_run (F : TextFormat ℝ) (rd : ℝ → ℝ) (hstr : ∀ c, F.float (F.str c) = some (rd c.value)) (hempty : F.float [] = none)
    (hcr : ∀ c, '\r' ∉ F.str c) (grid : List ℝ) (fuel : Nat) (jsonFile folder name : String) (disk : List (String × List Char))
    (out : List Char) (h : runTextOn grid fuel F jsonFile folder disk = some (.ok (), (name, out) :: disk))
    (q q' : Bool) (c : PlotCurves ℝ) (hc : plotFileText F.float q out = .ok (c, q')) :
    ∃ text data x0 phi0 T0 dx L size, lookup disk (F.canon jsonFile) = some text ∧ JsonText F.float (universal text) data ∧
      NumberAt (textEnv F disk) data "lava_state" "position" x0 ∧
      NumberAt (textEnv F disk) data "lava_state" "crystal_fraction" phi0 ∧
      NumberAt (textEnv F disk) data "eruption_condition" "eruption_temperature" T0 ∧
      NumberAt (textEnv F disk) data "crystals_parameters" "latent_heat_of_crystallization" L ∧
      TopEntry data "step_size" size ∧ size.toFloat (textEnv F disk) = .ok dx ∧
      (0 < dx → ∃ r : ℕ → ProfileRow, 2 ≤ c.distance.length ∧ (r 0).crystal = phi0 ∧ (r 0).temp = T0 ∧
        (∀ i, i < c.distance.length → PointShows rd c i (x0 + ((i + 1 : ℕ) : ℝ) * dx) (r (i + 1))) ∧
        (∀ i, i < c.distance.length → RowLaws L dx (r i) (r (i + 1)))) := by
  obtain ⟨text, data, h1, h2, x0, phi0, T0, dx, L, length, lavaName, rate, size, t1, k1, k2, k3, k4, _, k6, k7, _, _, _, h6⟩ :=
    C81_run_on_texts F rd hstr hcr grid fuel jsonFile folder disk _ h
  refine ⟨text, data, x0, phi0, T0, dx, L, size, h1, h2, k1, k2, k3, k4, k6, k7, fun hdx => ?_⟩
  rcases h6 hdx with e | ⟨out', lines, k, r, _, _, e, hd, hk, _, hshow, _, _, hstart, hlaws⟩
  · exact absurd (congrArg List.length e) (by simp)
  rw [List.cons.injEq, Prod.mk.injEq] at e
  obtain ⟨⟨_, rfl⟩, _⟩ := e
  obtain ⟨first, rest, hd', hl2, _, hcurves, _⟩ := (C91_curves_of_a_text q q' out c).mp hc
  rw [hd, Except.ok.injEq] at hd'
  subst hd'
  have hlen : c.distance.length = rest.length := (List.Forall₂.length_eq hcurves.distance).symm
  have hkl : (first :: rest).length = k := by
    rcases hk with hk | ⟨hk, last, hlast, hb, _⟩
    · exact hk
    · exfalso
      have hk0 : k ≠ 0 := by
        rintro rfl
        rw [List.length_cons] at hk
        omega
      have hmem : last ∈ rest := by
        obtain ⟨j, rfl⟩ := Nat.exists_eq_succ_of_ne_zero hk0
        rw [List.getElem?_cons_succ] at hlast
        exact List.mem_of_getElem? hlast
      obtain ⟨x, hx⟩ := curveIn_mem hcurves.slope last hmem
      exact blank_no_float hempty hb x hx
  rw [List.length_cons] at hkl
  obtain ⟨s1, s2⟩ := hstart (by omega)
  refine ⟨r, by omega, s1, s2, fun i hi => ?_, fun i hi => (hlaws i (by omega)).1⟩
  have hl : (first :: rest)[i + 1]? = some rest[i] := by
    rw [List.getElem?_cons_succ]; exact List.getElem?_eq_getElem (by omega)
  have hr : rest[i]? = some rest[i] := List.getElem?_eq_getElem (by omega)
  have hs := hshow (i + 1) _ (by omega) hl
  exact ⟨curveIn_get hcurves.distance hr hs.position, curveIn_get hcurves.temperature hr hs.temp, curveIn_get hcurves.velocity hr hs.velocity,
    curveIn_get hcurves.yieldStrength hr hs.yieldStrength, curveIn_get hcurves.width hr hs.width, curveIn_get hcurves.crystal hr hs.crystal,
    curveIn_get hcurves.slope hr hs.slope⟩

/-! ### Several files -/

theorem plotRows_iff (pf : List Char → Option ℝ) (lines : List (List (List Char))) (samples : List (ℝ × ℝ × ℝ)) :
    plotRows pf lines = .ok samples ↔ ProfileSamples pf lines samples := by
  unfold ProfileSamples
  induction lines generalizing samples with
  | nil =>
    rw [plotRows]
    constructor
    · intro h; cases h; exact .nil
    · intro h; cases h; rfl
  | cons fs rest ih =>
    rw [plotRows]
    simp only [bind_ok_iff, floatField_iff, pure_ok_iff, ih]
    constructor
    · rintro ⟨d, hd, s, hs, e, he, rows, hr, rfl⟩
      exact .cons ⟨hd, hs, he⟩ hr
    · intro h
      cases h with
      | @cons _ s _ rows hab hr => exact ⟨_, hab.1, _, hab.2.1, _, hab.2.2, _, hr, rfl⟩

theorem plotLoopText_iff (F : TextFormat ℝ) (disk : List (String × List Char)) (folder : String) (q : Bool) (names : List String)
    (cs : List (List Char × PlotCurves ℝ)) :
    plotLoopText F disk folder q names = .ok cs ↔
      List.Forall₂ (fun name lc => lc.1 = plotLabel folder name ∧ Drawn F disk name lc.2) names cs := by
  induction names generalizing q cs with
  | nil =>
    rw [plotLoopText]
    constructor
    · intro h; cases h; exact .nil
    · intro h; cases h; rfl
  | cons name rest ih =>
    rw [plotLoopText]
    cases hl : lookup disk (F.canon name) with
    | none =>
      constructor
      · intro h; cases h
      · intro h
        cases h with
        | cons hab _ =>
          obtain ⟨_, t, _, _, h, _⟩ := hab
          rw [hl] at h; cases h
    | some text =>
      dsimp only
      constructor
      · intro h
        obtain ⟨⟨c, q'⟩, hc, h⟩ := bind_ok_iff.mp h
        obtain ⟨cs', hcs, h⟩ := bind_ok_iff.mp h
        rw [pure_ok_iff] at h
        subst h
        obtain ⟨first, lines, a1, a2, a3, a4, _⟩ := (C91_curves_of_a_text _ _ _ _).mp hc
        exact .cons ⟨rfl, text, first, lines, hl, a1, a2, a3, a4⟩ ((ih _ _).mp hcs)
      · intro h
        cases h with
        | @cons _ lc _ cs' hab hr =>
          obtain ⟨e, t, first, lines, h, a1, a2, a3, a4⟩ := hab
          rw [hl, Option.some.injEq] at h
          subst h
          rw [(C91_curves_of_a_text q true text lc.2).mpr ⟨first, lines, a1, a2, a3, a4, rfl⟩, ok_bind]
          dsimp only
          rw [(ih true cs').mpr hr, ok_bind, ← e]
          rfl

/-- **C91**. What `plot_all_results` draws: the slope profile named in the configuration, sample by sample, and for every file of
    the list, in order, its label and its own curves, whatever the other files are. It ends normally exactly when the
    configuration is a JSON object whose `slope_file` is a readable profile and every file can be drawn by itself. -/
theorem C91_plot_all_results (F : TextFormat ℝ) (folder : String) (names : List String) (jsonFile : String) (disk : List (String × List Char))
    (slope : List (ℝ × ℝ × ℝ)) (cs : List (List Char × PlotCurves ℝ)) :
    plotAllText F folder names jsonFile disk = .ok (slope, cs) ↔
      ∃ text data s profile, lookup disk (F.canon jsonFile) = some text ∧ JsonText F.float (universal text) data ∧
        TopEntry data "slope_file" (.str s) ∧ lookup disk (F.canon s) = some profile ∧
        ProfileSamples F.float (dataLines profile) slope ∧
        List.Forall₂ (fun name lc => lc.1 = plotLabel folder name ∧ Drawn F disk name lc.2) names cs := by
  unfold plotAllText
  cases h1 : lookup disk (F.canon jsonFile) with
  | none =>
    constructor
    · intro h; cases h
    · rintro ⟨_, _, _, _, h, _⟩; cases h
  | some text =>
    dsimp only
    constructor
    · intro h
      obtain ⟨data, hdata, h⟩ := bind_ok_iff.mp h
      have hjson : JsonText F.float (universal text) data := (jsonLoads_iff F.float _ data).mp hdata
      split at h
      · rename_i l
        split at h
        · rename_i s hs
          split at h
          · cases h
          · rename_i profile hp
            obtain ⟨sl, hsl, h⟩ := bind_ok_iff.mp h
            obtain ⟨cs', hcs, h⟩ := bind_ok_iff.mp h
            rw [pure_ok_iff, Prod.mk.injEq] at h
            obtain ⟨rfl, rfl⟩ := h
            exact ⟨text, _, s, profile, rfl, hjson, ⟨l, rfl, hs⟩, hp, (plotRows_iff _ _ _).mp hsl, (plotLoopText_iff _ _ _ _ _ _).mp hcs⟩
        · cases h
      · cases h
    · rintro ⟨text', data, s, profile, e, hjson, ⟨l, rfl, hs⟩, hp, hsl, hcs⟩
      rw [Option.some.injEq] at e
      subst e
      rw [show jsonLoad F.float text = .ok (.obj l) from (jsonLoads_iff F.float _ _).mpr hjson, ok_bind]
      dsimp only
      rw [hs]
      dsimp only
      rw [hp]
      dsimp only
      rw [(plotRows_iff _ _ _).mpr hsl, ok_bind, (plotLoopText_iff F disk folder false names cs).mpr hcs, ok_bind]
      rfl

/-! ### Labels -/

theorem replace_none (old new s : List Char) (hold : ¬ old <:+: s) : replaceChars old new 0 s = s := by
  induction s with
  | nil => rfl
  | cons c s ih =>
    rw [replaceChars, if_neg, ih]
    · exact fun h => hold (h.trans (List.suffix_cons c s).isInfix)
    · intro h
      exact hold (List.isPrefixOf_iff_prefix.mp h).isInfix

theorem replace_skip (old new p s : List Char) : replaceChars old new p.length (p ++ s) = replaceChars old new 0 s := by
  induction p with
  | nil => rfl
  | cons c p ih => rw [List.length_cons, List.cons_append, replaceChars, ih]

theorem replace_head (old new s : List Char) (hold : old ≠ []) : replaceChars old new 0 (old ++ s) = new ++ replaceChars old new 0 s := by
  cases old with
  | nil => exact absurd rfl hold
  | cons c old =>
    rw [List.cons_append, replaceChars, if_pos]
    · rw [show (c :: old).length - 1 = old.length by simp, replace_skip]
    · rw [List.isPrefixOf_iff_prefix]
      exact ⟨s, rfl⟩

theorem plotPrefix (folder name : String) :
    (pathJoin folder ("results_flowgo_" ++ name)).toList = (pathJoin folder "results_flowgo_").toList ++ name.toList := by
  rw [pathJoin_rel _ _ (by simp [String.toList_append]), pathJoin_rel _ _ (by simp)]
  split <;> simp [String.toList_append]

/-- **C91**. The curves of a file `<folder>/results_flowgo_<label>.csv` are labelled `<label>`, unless the label itself
    contains the beginning of the file name again. -/
theorem C91_label (folder label : String) (h : ¬ (pathJoin folder "results_flowgo_").toList <:+: label.toList ++ ".csv".toList) :
    plotLabel folder (pathJoin folder ("results_flowgo_" ++ label ++ ".csv")) = label.toList := by
  have hne : (pathJoin folder "results_flowgo_").toList ≠ [] := by
    rw [pathJoin_rel _ _ (by simp), String.toList_append]
    simp
  unfold plotLabel
  rw [show "results_flowgo_" ++ label ++ ".csv" = "results_flowgo_" ++ (label ++ ".csv") by rw [String.append_assoc], plotPrefix,
    replace_head _ _ _ hne, List.nil_append, String.toList_append, replace_none _ _ _ h]
  dsimp only
  rw [if_pos (by rw [List.isSuffixOf_iff_suffix]; exact ⟨_, rfl⟩)]
  simp

/-- **C91**. The label of the result of a run: lava name and effusion rate. -/
theorem C91_label_of_a_result (folder lava rate : String)
    (h : ¬ (pathJoin folder "results_flowgo_").toList <:+: (lava ++ "_" ++ rate ++ "m3s.csv").toList) :
    plotLabel folder (resultFileName folder lava rate) = (lava ++ "_" ++ rate ++ "m3s").toList := by
  unfold resultFileName
  rw [show "results_flowgo_" ++ lava ++ "_" ++ rate ++ "m3s.csv" = "results_flowgo_" ++ (lava ++ "_" ++ rate ++ "m3s") ++ ".csv" by
    simp only [String.append_assoc]; rfl]
  apply C91_label
  rwa [show (lava ++ "_" ++ rate ++ "m3s").toList ++ ".csv".toList = (lava ++ "_" ++ rate ++ "m3s.csv").toList by
    simp [String.toList_append]]

/-- A folder with a name keeps its separator, so a lava name without one is safe. -/
theorem label_safe (folder s : String) (hf : folder ≠ "") (hs : '/' ∉ s.toList) : ¬ (pathJoin folder "results_flowgo_").toList <:+: s.toList := by
  intro h
  apply hs
  apply h.subset
  rw [pathJoin_rel _ _ (by simp), String.toList_append]
  split
  · rename_i hc
    rw [Bool.or_eq_true] at hc
    rcases hc with hc | hc
    · exact absurd (String.isEmpty_iff.mp hc) hf
    · exact List.mem_append_left _ (List.mem_of_getLast? (by simpa using hc))
  · simp [String.toList_append]

theorem int_no_slash (a : Int) : '/' ∉ (toString a).toList := by
  have nat : ∀ m : Nat, '/' ∉ (Nat.repr m).toList := by
    intro m h
    rw [Nat.toList_repr] at h
    have h2 := Nat.isDigit_of_mem_toDigits (b := 10) (n := m) (c := '/') (by omega) (by omega) h
    revert h2
    decide
  have e : ∀ x : Int, toString x = Int.repr x := fun _ => rfl
  rw [e]
  cases a with
  | ofNat m => exact nat m
  | negSucc m =>
    show '/' ∉ ("-" ++ Nat.repr (m + 1)).toList
    rw [String.toList_append, List.mem_append]
    rintro (h | h)
    · revert h; decide
    · exact nat _ h

/-- **C91**. In one figure the runs of a sweep have different labels: a folder and a lava name without separator in it. -/
theorem C91_labels_distinct (folder lava : String) (hf : folder ≠ "") (hl : '/' ∉ lava.toList) (a b : Int)
    (h : plotLabel folder (resultFileName folder lava (toString a)) = plotLabel folder (resultFileName folder lava (toString b))) : a = b := by
  have hs : ∀ a : Int, '/' ∉ (lava ++ "_" ++ toString a ++ "m3s.csv").toList := by
    intro a hm
    simp only [String.toList_append, List.mem_append] at hm
    rcases hm with ((hm | hm) | hm) | hm
    · exact hl hm
    · revert hm; decide
    · exact int_no_slash a hm
    · revert hm; decide
  rw [C91_label_of_a_result _ _ _ (label_safe _ _ hf (hs a)), C91_label_of_a_result _ _ _ (label_safe _ _ hf (hs b))] at h
  simp only [String.toList_append] at h
  exact toString_int_inj (String.toList_injective (List.append_cancel_left (List.append_cancel_right h)))

end PyFlowGo
