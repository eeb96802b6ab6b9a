import Verif.Props.PlotTextMore
import Verif.Props.RunOutsDiskExample
/-
  C91 on an example: a run, then the figure of its result.
-/
set_option linter.unusedSectionVars false
namespace PyFlowGo
open Spec

/-- **C91**. A result with at least three lines, all of them with the columns the figure needs, can be drawn, however it was printed. -/
theorem C91_complete_result_is_drawn (F : TextFormat ℝ) (rd : ℝ → ℝ) (hstr : ∀ c, F.float (F.str c) = some (rd c.value))
    (hempty : F.float [] = none) (hcr : ∀ c, '\r' ∉ F.str c) (log : Log (Cell ℝ)) (t : CsvTable (Cell ℝ))
    (ht : writeValues log = .ok (some t)) (hn : ∀ n ∈ t.header, '\r' ∉ n.toList) (hl : 3 ≤ log.length)
    (hcols : ∀ name ∈ plotColumns, ∀ r ∈ log, name ∈ r.keys) (q : Bool) :
    ∃ c, plotFileText F.float q (stored F.windows (t.text F.str)) = .ok (c, true) ∧ c.distance.length + 1 = log.length := by
  obtain ⟨r0, rest, rfl, e⟩ := writeValues_header ht
  have he : "effusion_rate" ∈ r0.keys := hcols _ (by decide) r0 (by simp)
  have hrest : ∀ name ∈ plotColumns, ∀ r ∈ rest, name ∈ r.keys := fun name hn r hr => hcols name hn r (List.mem_cons_of_mem _ hr)
  obtain ⟨c, hc⟩ := curves_exist (rest.map (roundRow rd)) (by
    intro name hn r hr
    obtain ⟨r', hr', rfl⟩ := List.mem_map.mp hr
    rw [roundRow_keys]
    exact hrest name hn r' hr')
  refine ⟨c, (C91_result_of_a_log F rd hstr hempty hcr _ t ht ?_ hn q true c).mpr ⟨r0, rest, rfl, ?_, he, hrest, hc, rfl⟩, ?_⟩
  · rw [e]; exact List.ne_nil_of_mem he
  · rw [List.length_cons] at hl; omega
  · have := hc.distance.length_eq
    rw [List.length_map] at this
    rw [List.length_cons, this]

/-- The points drawn for a column: its printed numbers from the second line on. -/
theorem curve_of_column {rd : ℝ → ℝ} {r0 : Row (Cell ℝ)} {rest : List (Row (Cell ℝ))} {name : String} {x0 : ℝ} {xs ys : List ℝ} {f : ℝ → ℝ}
    (hcol : ColumnIs (r0 :: rest) name (x0 :: xs)) (hc : CurveOf (rest.map (roundRow rd)) name f ys) : ys = xs.map fun x => f (rd x) := by
  obtain ⟨cells, h1, h2⟩ := hcol
  cases cells with
  | nil => simp at h2
  | cons c cells =>
    rw [List.map_cons, List.cons.injEq] at h2
    obtain ⟨_, rfl⟩ := h2
    unfold Log.getValues at h1
    rw [List.map_cons, List.map_cons, List.cons.injEq] at h1
    replace h1 := h1.2
    clear * - h1 hc
    unfold CurveOf at hc
    induction rest generalizing cells ys with
    | nil =>
      cases hc
      cases cells with
      | nil => rfl
      | cons c cells => simp at h1
    | cons r rest ih =>
      cases cells with
      | nil => simp at h1
      | cons c cells =>
        rw [List.map_cons, List.map_cons, List.cons.injEq] at h1
        rw [List.map_cons] at hc
        cases hc with
        | cons hab ht =>
          obtain ⟨x, ⟨c', hc', rfl⟩, rfl⟩ := hab
          rw [roundRow_get, h1.1, Option.map_some, Option.some.injEq] at hc'
          subst hc'
          rw [ih ht cells h1.2]
          rfl

/-- The samples of the example profile. -/
theorem milli_plot_samples : ProfileSamples milliFloat (dataLines milliProfile) [(0, 90, 0), (2000, 90, 0)] := by
  have e0 : milliFloat (milliText 0) = some 0 := by rw [milli_reads]; simpa using milli_int 0
  have e1 : milliFloat (milliText 90) = some 90 := by rw [milli_reads]; simpa using milli_int 90
  have e2 : milliFloat (milliText 2000) = some 2000 := by rw [milli_reads]; simpa using milli_int 2000
  have hone : ∀ x, '\t' ∉ milliText x ∧ OneLine (milliText x) := fun x =>
    ⟨milli_clean x _ (by simp), milli_clean x _ (by simp), milli_clean x _ (by simp)⟩
  have hd : dataLines milliProfile = [[milliText 0, milliText 0, milliText 0, milliText 0, milliText 90],
      [milliText 0, milliText 0, milliText 0, milliText 2000, milliText 90]] := by
    refine dataLines_tabFile .lf true ['h'] (by simp [OneLine]) _ ?_ (Or.inl rfl)
    intro r hr
    simp only [List.mem_cons, List.not_mem_nil, or_false] at hr
    rcases hr with rfl | rfl
    · exact ⟨by simp, by simp [hone]⟩
    · exact ⟨by simp, by simp [hone]⟩
  rw [hd]
  exact .cons ⟨⟨_, rfl, e0⟩, ⟨_, rfl, e1⟩, ⟨_, rfl, e0⟩⟩ (.cons ⟨⟨_, rfl, e2⟩, ⟨_, rfl, e1⟩, ⟨_, rfl, e0⟩⟩ .nil)

/-- A result of the example with three lines can be drawn. -/
theorem milli_drawn (windows q : Bool) (log : Log (Cell ℝ)) (t : CsvTable (Cell ℝ))
    (hlog : log.length = 3 ∧ (∀ r ∈ log, ∀ c, c ∈ r.keys ↔ c ∈ runColumns (flowG stillFluxes)) ∧
        ColumnIs log "position" ((List.range 3).map fun i : ℕ => (i : ℝ))) (ht : writeValues log = .ok (some t)) :
    ∃ c, plotFileText milliFloat q (stored windows (t.text fun c => milliText c.value)) = .ok (c, true) ∧ c.distance.length = 2 := by
  obtain ⟨hl, hk, _⟩ := hlog
  obtain ⟨c, h1, h2⟩ := C91_complete_result_is_drawn (milliFormat windows) milliRound (fun c => milli_reads _) rfl (fun c => milli_clean _ _ (by simp))
    log t ht (by
      obtain ⟨r0, rest, rfl, e⟩ := writeValues_header ht
      intro m hm
      rw [e] at hm
      exact noCr_columns _ m ((hk r0 (by simp) m).mp hm)) (by omega)
    (fun name hn r hr => (hk r hr name).mpr (plot_columns _ (Or.inl (by simp [flowG, flowModels, stillFluxes])) name hn)) q
  exact ⟨c, h1, by omega⟩

/-- **C91**, non-vacuity: a run of three lines, then its figure, with its label, two points per curve at the printed positions 1 and 2. -/
example (windows : Bool) (disk : List (String × List Char))
    (hdisk : disk = [("still.json", stored windows (jsonDump milliText (stillConfig 3 3 (.int 1)))), ("slope.txt", milliProfile)]) :
    ∃ out c, runTextOn [1] 3 (milliFormat windows) "still.json" "out" disk =
      some (.ok (), ("out/results_flowgo_example_1m3s.csv", out) :: disk) ∧
    plotAllText (milliFormat windows) "out" ["out/results_flowgo_example_1m3s.csv"] "still.json"
      (("out/results_flowgo_example_1m3s.csv", out) :: disk) = .ok ([(0, 90, 0), (2000, 90, 0)], [("example_1m3s".toList, c)]) ∧
    c.distance = [1, 2] := by
  have hjson : lookup disk "still.json" = some (stored windows (jsonDump milliText (stillConfig 3 3 (.int 1)))) := by
    rw [hdisk, lookup_cons_eq, if_pos rfl]
  have hslope : lookup disk "slope.txt" = some milliProfile := by
    rw [hdisk, lookup_cons_eq, if_neg (by show "still.json" ≠ "slope.txt"; decide), lookup_cons_eq, if_pos rfl]
  obtain ⟨log, t, hlog, ht, hrun⟩ := milli_run_table windows 3 (by omega) (by omega) 1 (Or.inr rfl) "still.json" "out" disk hslope
    (by exact_mod_cast hjson)
  have e1 : resultFileName "out" "example" (toString (1 : Int)) = "out/results_flowgo_example_1m3s.csv" := by decide
  rw [e1] at hrun
  obtain ⟨c, hc, _⟩ := milli_drawn windows false log t hlog ht
  obtain ⟨first, rest, d1, d2, d3, d4, _⟩ := (C91_curves_of_a_text _ _ _ _).mp hc
  refine ⟨_, c, hrun, ?_, ?_⟩
  · refine (C91_plot_all_results _ _ _ _ _ _ _).mpr ⟨stored windows (jsonDump milliText (stillConfig 3 3 (.int 1))), stillConfig 3 3 (.int 1), "slope.txt", milliProfile, ?_, ?_, ?_, ?_, milli_plot_samples, ?_⟩
    · rw [lookup_cons_eq, if_neg (by show "out/results_flowgo_example_1m3s.csv" ≠ "still.json"; decide)]
      exact hjson
    · refine (jsonLoads_iff _ _ _).mp (C79_round_trip milliFloat milliText (stillConfig 3 3 (.int 1)) (still_distinct _ _ _)
        (still_nums _ _ (fun a b => milli_readable _ (by exact_mod_cast still_milli 3 a b)) _ _) windows)
    · refine ⟨_, rfl, ?_⟩
      rw [lookup_cons_eq, if_neg (by decide), lookup_cons_eq, if_pos rfl]
    · rw [lookup_cons_eq, if_neg (by show "out/results_flowgo_example_1m3s.csv" ≠ "slope.txt"; decide)]
      exact hslope
    · refine .cons ⟨?_, _, first, rest, by rw [lookup_cons_eq]; exact if_pos rfl, d1, d2, d3, d4⟩ .nil
      rw [← e1, C91_label_of_a_result _ _ _ (label_safe _ _ (by decide) (by decide))]
      show "example_1m3s".toList = ("example" ++ "_" ++ toString (1 : Int) ++ "m3s").toList
      decide
  · obtain ⟨r0, rest', e, h2, _, _, hcv, _⟩ := (C91_result_of_a_log (milliFormat windows) milliRound (fun c => milli_reads _) rfl
      (fun c => milli_clean _ _ (by simp)) log t ht (by
        obtain ⟨r0, rest, rfl, e⟩ := writeValues_header ht
        rw [e]
        exact List.ne_nil_of_mem ((hlog.2.1 r0 (by simp) "position").mpr
          (plot_columns _ (Or.inl (by simp [flowG, flowModels, stillFluxes])) _ (by decide)))) (by
        obtain ⟨r0, rest, rfl, e⟩ := writeValues_header ht
        intro m hm
        rw [e] at hm
        exact noCr_columns _ m ((hlog.2.1 r0 (by simp) m).mp hm)) false true c).mp hc
    have hpos := hlog.2.2
    subst e
    have hr : (List.range 3).map (fun i : ℕ => (i : ℝ)) = [0, 1, 2] := by simp [List.range_succ]
    rw [hr] at hpos
    rw [curve_of_column hpos hcv.distance]
    have m1 : milliRound 1 = 1 := by simpa using milli_int 1
    have m2 : milliRound 2 = 2 := by simpa using milli_int 2
    simp [m1, m2]

end PyFlowGo
