import Verif.Props.RunOutsDisk
import Verif.Props.SweepTextExample
/-
  C90 on an example: two runs, then `get_run_outs` on their results.
-/
set_option linter.unusedSectionVars false
namespace PyFlowGo
open Spec

theorem milliRound_mono : Monotone milliRound := by
  intro x y h
  unfold milliRound
  have : ⌊1000 * x⌋ ≤ ⌊1000 * y⌋ := Int.floor_le_floor (by linarith)
  have : ((⌊1000 * x⌋ : ℤ) : ℝ) ≤ ((⌊1000 * y⌋ : ℤ) : ℝ) := by exact_mod_cast this
  linarith

/-- The samples of the example profile within a distance below 2000 m. -/
theorem milli_samples (limit : ℝ) (h0 : 0 ≤ limit) (h1 : limit < 2000) : SamplesUpTo milliFloat limit (dataLines milliProfile) [(0, 0, 0, 0)] := by
  have e0 : milliFloat (milliText 0) = some 0 := by rw [milli_reads]; simpa using milli_int 0
  have e2 : milliFloat (milliText 2000) = some 2000 := by rw [milli_reads]; simpa using milli_int 2000
  have hone : ∀ x, '\t' ∉ milliText x ∧ OneLine (milliText x) := fun x =>
    ⟨milli_clean x _ (by simp), milli_clean x _ (by simp), milli_clean x _ (by simp)⟩
  have hd : dataLines milliProfile = [[milliText 0, milliText 0, milliText 0, milliText 0, milliText 90],
      [milliText 0, milliText 0, milliText 0, milliText 2000, milliText 90]] := by
    refine dataLines_tabFile .lf true ['h'] (by simp [OneLine]) _ ?_ (Or.inl rfl)
    intro r hr
    simp only [List.mem_cons, List.not_mem_nil, or_false] at hr
    rcases hr with rfl | rfl
    · exact ⟨by simp, by simp [hone]⟩
    · exact ⟨by simp, by simp [hone]⟩
  rw [hd]
  exact .near h0 ⟨_, rfl, e0⟩ ⟨_, rfl, e0⟩ ⟨_, rfl, e0⟩ ⟨_, rfl, e0⟩ (.far h1 ⟨_, rfl, e2⟩ .nil)

/-- A result of the example with at least two lines can be reported on. -/
theorem milli_reported (windows : Bool) (n : Nat) (hn2 : 2 ≤ n) (hn3 : n ≤ 3) (log : Log (Cell ℝ)) (t : CsvTable (Cell ℝ))
    (hlog : log.length = n ∧ (∀ r ∈ log, ∀ c, c ∈ r.keys ↔ c ∈ runColumns (flowG stillFluxes)) ∧
        ColumnIs log "position" ((List.range n).map fun i : ℕ => (i : ℝ))) (ht : writeValues log = .ok (some t)) (round : Nat → ℝ → ℝ) :
    ∃ line, runOutOfText round milliFloat (stored windows (t.text fun c => milliText c.value)) (some milliProfile) = .ok line := by
  obtain ⟨hl, hk, hp⟩ := hlog
  have hm1 : milliRound ((n - 1 : ℕ) : ℝ) = ((n - 1 : ℕ) : ℝ) := by
    simpa using milli_int ((n - 1 : ℕ) : ℤ)
  have hm2 : milliRound 1 = 1 := by simpa using milli_int 1
  have hb : ((n - 1 : ℕ) : ℝ) ≤ 2 := by exact_mod_cast (by omega : n - 1 ≤ 2)
  have hb0 : (0 : ℝ) ≤ ((n - 1 : ℕ) : ℝ) := Nat.cast_nonneg _
  refine C90_complete_result_is_reported (milliFormat windows) milliRound milliRound_mono (fun c => milli_reads _)
    (fun c => milli_clean _ _ (by simp)) log t ht ?_ ?_ _ hp ((n - 1 : ℕ) : ℝ) 1 ?_ ?_ ?_ milliProfile [(0, 0, 0, 0)] (by simp) ?_ round
  · obtain ⟨r0, rest, rfl, e⟩ := writeValues_header ht
    intro m hm
    rw [e] at hm
    exact noCr_columns _ m ((hk r0 (by simp) m).mp hm)
  · intro c hc r hr
    exact (hk r hr c).mpr (runOut_columns _ c hc)
  · exact List.mem_map.mpr ⟨n - 1, List.mem_range.mpr (by omega), rfl⟩
  · intro x hx
    obtain ⟨i, hi, rfl⟩ := List.mem_map.mp hx
    have := List.mem_range.mp hi
    exact_mod_cast (by omega : i ≤ n - 1)
  · rw [List.getElem?_map, List.getElem?_range (by omega)]
    simp
  · exact milli_samples _ (by rw [hm1, hm2]; linarith) (by rw [hm1, hm2]; linarith)

/-- **C90**, non-vacuity: a run, then its run-out: two files are added, and the figure has one point. -/
example (windows : Bool) (n : Nat) (hn2 : 2 ≤ n) (hn3 : n ≤ 3) (round : Nat → ℝ → ℝ) (disk : List (String × List Char))
    (hdisk : disk = [("still.json", stored windows (jsonDump milliText (stillConfig 3 n (.int 1)))), ("slope.txt", milliProfile)]) :
    ∃ out rows table, ∃ line : RunOut ℝ,
    runTextOn [1] n (milliFormat windows) "still.json" "out" disk =
      some (.ok (), ("out/results_flowgo_example_1m3s.csv", out) :: disk) ∧
    getRunOutsText round (milliFormat windows) "out" ["out/results_flowgo_example_1m3s.csv"] "slope.txt" "example"
        (("out/results_flowgo_example_1m3s.csv", out) :: disk) =
      (.ok { title := "example".toList, distance := [milliRound line.runOut], effusionRate := [milliRound line.effusionRate] },
        ("out/run_outs_example.csv", table) :: ("out/results_flowgo_example_1m3s.csv", out) :: disk) ∧
    dictRead ',' table = .ok rows ∧ rows.length = 1 := by
  have hslope : lookup disk "slope.txt" = some milliProfile := by
    rw [hdisk, lookup_cons_eq, if_neg (by show "still.json" ≠ "slope.txt"; decide), lookup_cons_eq, if_pos rfl]
  obtain ⟨log, t, hlog, ht, hrun⟩ := milli_run_table windows n (by omega) hn3 1 (Or.inr rfl) "still.json" "out" disk hslope
    (by rw [hdisk, lookup_cons_eq, if_pos rfl])
  have e1 : resultFileName "out" "example" (toString (1 : Int)) = "out/results_flowgo_example_1m3s.csv" := by decide
  rw [e1] at hrun
  obtain ⟨line, hline⟩ := milli_reported windows n hn2 hn3 log t hlog ht round
  have e2 : pathJoin "out" ("run_outs_" ++ "example" ++ ".csv") = "out/run_outs_example.csv" := by decide
  obtain ⟨table, rows, h1, h2, h3⟩ := C90_get_run_outs round (milliFormat windows) milliRound (fun c => milli_reads _)
    (fun c => milli_clean _ _ (by simp)) "out" ["out/results_flowgo_example_1m3s.csv"] "slope.txt" "example" (by decide)
    (("out/results_flowgo_example_1m3s.csv", stored windows (t.text fun c => milliText c.value)) :: disk) [line] (by simp)
    (by
      rw [e2]
      intro name hn
      show name ≠ "out/run_outs_example.csv"
      simp only [List.mem_cons, List.not_mem_nil, or_false] at hn
      rcases hn with rfl | rfl <;> decide)
    (.cons ⟨_, milliProfile, by rw [lookup_cons_eq]; exact if_pos rfl,
      by rw [lookup_cons_eq, if_neg (by show "out/results_flowgo_example_1m3s.csv" ≠ "slope.txt"; decide)]; exact hslope,
      (C90_run_out_of_a_text _ _ _ _ _).mp hline⟩ .nil)
  rw [e2] at h1
  exact ⟨_, rows, table, line, hrun, h1, h2, by have := h3.length_eq; simpa using this.symm⟩

end PyFlowGo
