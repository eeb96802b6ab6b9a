import Verif.Props.SweepOrder
import Verif.Props.StrongerTemplate
import Verif.Props.SweepFullExample
/-
  Concrete cases for C123 and C124: the shipped template with rain as its only heat loss, run at one rate and swept over two rates.
-/
set_option linter.unusedSectionVars false
namespace PyFlowGo
open Spec

/-- One run of that template at the rate `R`: what it shows, and that its run-out can be computed. -/
theorem rain_out : ∃ r0 : ℝ, 0 < r0 ∧ ∀ R : Int, r0 ≤ (R : ℝ) →
    prepare rainEnv (rainConfig (.int R)) [] = .ok (rainPrepared (.int R) R templateRows) ∧
    Sensible (rainPrepared (.int R) R templateRows).integrator (rainPrepared (.int R) R templateRows).world.terrain 0 ∧
    AtVent (rainPrepared (.int R) R templateRows).integrator (rainPrepared (.int R) R templateRows).world ∧
    ∃ log t, writeValues log = .ok (some t) ∧ CompleteRow log 0 ∧ CompleteRow log 10 ∧
      (∀ R', Flowed (rainPrepared (.int R') R' templateRows) (0.896 / (1387.15 - 1237.15)) log) ∧
      (∀ round, ∃ ro, getRunOut round t templateRows = .ok ro) ∧
      ∀ working folder p, lookup p.json working = some (rainConfig (.int R)) →
        runOn depthGrid 3000 rainEnv working folder (newRunner p) = some (.ok (),
          { json := p.json, results := (resultFileName folder "example" (toString R), t) :: p.results, log := log }) := by
  obtain ⟨r0, h0, h⟩ := rain_run_at
  refine ⟨r0, h0, fun R hR => ?_⟩
  obtain ⟨a1, a2, a3, w', D, b1, b2, b3, b4, b5, b6, b7⟩ := h (.int R) R rfl hR
  refine ⟨a1, a2, a3, ?_⟩
  obtain ⟨t0, ht0, hnone⟩ := C04_write_never_fails (fun c => beq_self_eq_true c) depthGrid 3000 _ _ w' rfl b1
  obtain ⟨t, rfl⟩ : ∃ t, t0 = some t := by
    cases t0 with
    | some t => exact ⟨t, rfl⟩
    | none =>
      rw [hnone.mp rfl] at b2
      cases b2
  have hrun : ∀ working folder p, lookup p.json working = some (rainConfig (.int R)) →
      runOn depthGrid 3000 rainEnv working folder (newRunner p) = some (.ok (),
          { json := p.json, results := (resultFileName folder "example" (toString R), t) :: p.results, log := w'.log }) := by
    intro working folder p hp
    exact (runOn_of (env := rainEnv) (p := newRunner p) (jsonFile := working) (folder := folder) hp a1 b1).1 t ht0
  refine ⟨w'.log, t, ht0, b3, b4, fun R' => ⟨D, b2, b5, b6, b7⟩, fun round => ?_, hrun⟩
  have hq := hrun "rain.json" "out" ⟨[("rain.json", rainConfig (.int R))], [], []⟩ (by rw [lookup_cons_eq]; exact if_pos rfl)
  have hdata : lookup (⟨[("rain.json", rainConfig (.int R))], [], []⟩ : Proc ℝ).json (rainEnv.canon "rain.json") = some (rainConfig (.int R)) := by
    rw [lookup_cons_eq]; exact if_pos rfl
  obtain ⟨k, c1, c2⟩ := C124_complete_rows rainEnv "rain.json" "out" _ _ (rainConfig (.int R)) _ hdata rfl a1 a2 a3 3000 hq
  have hk : w'.log.length = k := by
    rcases c2 with c2 | ⟨_, y, hy, hy0⟩
    · exact c2
    · exact absurd (b7 _ _ hy) (not_lt.mpr hy0)
  have hk2 : 2 ≤ k := by
    obtain ⟨i, hi, e⟩ := (c1 10).mp b4
    have e : (10 : ℝ) = 0 + i * 10 := e
    have : (i : ℝ) = 1 := by linarith
    have : i = 1 := by exact_mod_cast this
    omega
  have hpost := C124_post_processing rainEnv "rain.json" "out" _ _ (rainConfig (.int R)) _ hdata rfl a1 a2 a3 (fun h => by cases h) 3000 hq round t ht0 templateRows
  refine hpost.mpr ⟨hk.ge.trans' hk2, ?_, ?_⟩
  · show ∃ y, loggedNum w'.log (0 + ((w'.log.length : ℝ) - 1) * 10) "heat_budget" = some y ∧ 0 < y
    have hc : CompleteRow w'.log (0 + ((w'.log.length : ℝ) - 1) * 10) := by
      refine (c1 _).mpr ⟨k - 1, by omega, ?_⟩
      show _ = (0 : ℝ) + ((k - 1 : ℕ) : ℝ) * 10
      rw [hk, Nat.cast_sub (by omega), Nat.cast_one]
    obtain ⟨_, _, hp, _⟩ := C119_run rainEnv "rain.json" "out" _ _ (rainConfig (.int R)) _ hdata a1 a2 a3 (fun h => by cases h) 3000 hq
    exact (hp _ hc).heat_budget
  · refine ⟨⟨0, 0, 0, 0, 12⟩, List.mem_cons_self, ?_⟩
    show (0 : ℝ) ≤ 2 * 0 + (w'.log.length : ℝ) * 10
    positivity

/-- **C124**: a run of the template, at some rate, with rain only: its first two rows are complete, every heat budget in it is positive and its run-out can be computed. -/
example (round : Nat → ℝ → ℝ) : ∃ (R : Int) (q : Proc ℝ) (t : CsvTable (Cell ℝ)) (ro : RunOut ℝ), 0 < R ∧
    run 3000 rainEnv "rain.json" "out" ⟨[("rain.json", rainConfig (.int R))], [], []⟩ = some (.ok (), q) ∧
    CompleteRow q.log 0 ∧ CompleteRow q.log 10 ∧ (∀ x y, loggedNum q.log x "heat_budget" = some y → 0 < y) ∧
    writeValues q.log = .ok (some t) ∧ getRunOut round t templateRows = .ok ro := by
  obtain ⟨r0, h0, h⟩ := rain_out
  obtain ⟨R, hR⟩ := exists_int_gt r0
  obtain ⟨_, _, _, log, t, b1, b2, b3, b4, b5, b6⟩ := h R hR.le
  obtain ⟨ro, hro⟩ := b5 round
  obtain ⟨_, _, _, _, b7⟩ := b4 R
  exact ⟨R, _, t, ro, by exact_mod_cast h0.trans hR, b6 "rain.json" "out" ⟨[("rain.json", rainConfig (.int R))], [], []⟩ (by rw [lookup_cons_eq]; exact if_pos rfl), b2, b3, b7, b1, hro⟩

theorem rates_two (R : Int) : sweepRates R (R + 1) 1 = .ok [R, R + 1] := by
  unfold sweepRates pyRange
  rw [if_neg (by decide), if_pos (by decide)]
  have : ((R + 1 + 1 - R + 1 - 1) / 1).toNat = 2 := by rw [Int.ediv_one]; omega
  rw [this]
  simp [List.range_succ]

/-- A sweep over two neighbouring rates, and its two runs. -/
theorem rain_sweep_runs (R : Int) (t0 t1 : CsvTable (Cell ℝ)) (log0 log1 : Log (Cell ℝ))
    (run0 : ∀ working folder p, lookup p.json working = some (rainConfig (.int R)) →
        runOn depthGrid 3000 rainEnv working folder (newRunner p) = some (.ok (),
          { json := p.json, results := (resultFileName folder "example" (toString R), t0) :: p.results, log := log0 }))
    (run1 : ∀ working folder p, lookup p.json working = some (rainConfig (.int (R + 1))) →
        runOn depthGrid 3000 rainEnv working folder (newRunner p) = some (.ok (),
          { json := p.json, results := (resultFileName folder "example" (toString (R + 1)), t1) :: p.results, log := log1 })) :
    ∃ p1 runs, sweep depthGrid 3000 rainEnv "rain.json" "out" R (R + 1) 1 ⟨[("rain.json", rainConfig (.int R))], [], []⟩ =
        some (.ok [resultFileName "out" "example" (toString R), resultFileName "out" "example" (toString (R + 1))], p1) ∧
      runs.map SweepRun.log = [log0, log1] ∧
      List.Forall₂ (IsSweepRun depthGrid 3000 rainEnv (rainConfig (.int R)) (workingFile "rain.json" "out") "out") [R, R + 1] runs ∧
      p1.results = runs.reverse.flatMap (·.files) ++ [] ∧
      p1.results = [(resultFileName "out" "example" (toString (R + 1)), t1), (resultFileName "out" "example" (toString R), t0)] := by
  have hlv : ∀ rate, (rainConfig rate).get "lava_name" = .ok (.str "example") := fun _ => rfl
  have hset : ∀ rate r, (rainConfig rate).set "effusion_rate_init" (.int r) = .ok (rainConfig (.int r)) := fun _ _ => rfl
  have hsweep : ∃ p1, sweep depthGrid 3000 rainEnv "rain.json" "out" R (R + 1) 1 ⟨[("rain.json", rainConfig (.int R))], [], []⟩ =
      some (.ok [resultFileName "out" "example" (toString R), resultFileName "out" "example" (toString (R + 1))], p1) ∧
      p1.results = [(resultFileName "out" "example" (toString (R + 1)), t1), (resultFileName "out" "example" (toString R), t0)] := by
    have h1 : lookup [("rain.json", rainConfig (.int R))] (rainEnv.canon "rain.json") = some (rainConfig (.int R)) := by
      rw [lookup_cons_eq]; exact if_pos rfl
    unfold sweep
    dsimp only
    rw [h1]; dsimp only; rw [rates_two]; dsimp only
    unfold sweepLoop
    rw [hset]; dsimp only
    rw [run0 _ _ _ (by rw [writeFile, lookup_cons]; exact if_pos rfl)]; dsimp only
    rw [hlv]; dsimp only
    unfold sweepLoop
    rw [hset]; dsimp only
    rw [run1 _ _ _ (by rw [writeFile, lookup_cons]; exact if_pos rfl)]; dsimp only
    rw [hlv]; dsimp only
    exact ⟨_, rfl, rfl⟩
  obtain ⟨p1, hsweep, hres⟩ := hsweep
  refine ⟨p1, [⟨rainConfig (.int R), log0, [(resultFileName "out" "example" (toString R), t0)]⟩,
       ⟨rainConfig (.int (R + 1)), log1, [(resultFileName "out" "example" (toString (R + 1)), t1)]⟩], hsweep, rfl, ?_,
    by rw [hres]; rfl, hres⟩
  have hwith : ∀ r : Int, WithRate (rainConfig (.int R)) (rainConfig (.int r)) r := by
    intro r
    obtain ⟨a, b⟩ := set_spec _ _ _ _ (hset (.int R) r)
    exact ⟨a, b⟩
  have hn : ∀ p : Proc ℝ, p.log = [] → newRunner p = p := fun p h => by cases p; simp only at h; subst h; rfl
  refine List.Forall₂.cons ⟨hwith R, ?_⟩ (List.Forall₂.cons ⟨hwith (R + 1), ?_⟩ List.Forall₂.nil)
  · unfold freshOutcome
    have := run0 (workingFile "rain.json" "out") "out" { json := [(rainEnv.canon (workingFile "rain.json" "out"), rainConfig (.int R))], results := [], log := [] }
      (by rw [lookup_cons]; exact if_pos rfl)
    rw [hn _ rfl] at this
    rw [this]; rfl
  · unfold freshOutcome
    have := run1 (workingFile "rain.json" "out") "out" { json := [(rainEnv.canon (workingFile "rain.json" "out"), rainConfig (.int (R + 1)))], results := [], log := [] }
      (by rw [lookup_cons]; exact if_pos rfl)
    rw [hn _ rfl] at this
    rw [this]; rfl

/-- **C123**: a sweep of that template over two rates ends normally, its run-out table has two lines, and the second is neither shorter nor shallower than the first. -/
example (round : Nat → ℝ → ℝ) (hround : ∀ a b, a ≤ b → round 0 a ≤ round 0 b) : ∃ (R : Int) (names : List String) (p1 : Proc ℝ) (table : RunOutFile ℝ) (a b : RunOut ℝ), 0 < R ∧
    sweep depthGrid 3000 rainEnv "rain.json" "out" R (R + 1) 1 ⟨[("rain.json", rainConfig (.int R))], [], []⟩ = some (.ok names, p1) ∧
    getRunOuts round rainEnv p1 "out" names "slope.txt" "example" = (.ok (), table) ∧
    table.lines = [a, b] ∧ a.runOut ≤ b.runOut ∧ a.depth ≤ b.depth := by
  obtain ⟨r0, h0, h⟩ := rain_out
  obtain ⟨R, hR⟩ := exists_int_gt r0
  obtain ⟨hprep, hg, hv, log0, t0, b1, b2, b3, b4, b5, run0⟩ := h R hR.le
  obtain ⟨_, _, _, log1, t1, c1, c2, c3, c4, c5, run1⟩ := h (R + 1) (by push_cast; linarith)
  obtain ⟨p1, runs, hsweep, hlogs, hruns, hres, hres'⟩ := rain_sweep_runs R t0 t1 log0 log1 run0 run1
  obtain ⟨l0, hl0⟩ := b5 round
  obtain ⟨l1, hl1⟩ := c5 round
  have hne : resultFileName "out" "example" (toString R) ≠ resultFileName "out" "example" (toString (R + 1)) := fun he => by
    have := C57_names_distinct _ _ _ _ he; omega
  have hout : getRunOuts round rainEnv p1 "out" [resultFileName "out" "example" (toString R), resultFileName "out" "example" (toString (R + 1))] "slope.txt" "example" =
      (.ok (), { path := pathJoin "out" ("run_outs_" ++ "example" ++ ".csv"), flowId := "example", lines := [l0, l1] }) := by
    have : runOutsLoop round (some templateRows) (fun name => lookup p1.results (rainEnv.canon name))
        [resultFileName "out" "example" (toString R), resultFileName "out" "example" (toString (R + 1))] = (.ok (), [l0, l1]) := by
      refine (runOutsLoop_ok round templateRows _ _ _).mpr (List.Forall₂.cons ⟨t0, ?_, hl0⟩ (List.Forall₂.cons ⟨t1, ?_, hl1⟩ List.Forall₂.nil))
      · rw [hres', lookup_cons]
        rw [show rainEnv.canon (resultFileName "out" "example" (toString R)) = resultFileName "out" "example" (toString R) from rfl, if_neg hne, lookup_cons]
        exact if_pos rfl
      · rw [hres', lookup_cons]
        exact if_pos rfl
    unfold getRunOuts
    rw [show rainEnv.slopeFile "slope.txt" = some templateRows from rfl, this]
    rfl
  have hev : Everyday (rainPrepared (.int R) R templateRows).integrator 0 (0.896 / (1387.15 - 1237.15)) :=
    template_everyday rainModels rfl (by
      intro f hf
      have hf : f ∈ [(Flux.rain 7.93e-8 958 2.8e6 : Flux ℝ)] := hf
      rw [List.mem_singleton.mp hf]
      show (0 : ℝ) ≤ 7.93e-8 * 958 * 2.8e6
      norm_num) false 10 0
  have hR0 : 0 < R := by exact_mod_cast h0.trans hR
  obtain ⟨_, hpw⟩ := C123_run_outs 3000 round rainEnv "rain.json" "out" "slope.txt" R (R + 1) 1 _ p1 _ (rainConfig (.int R)) [R, R + 1] (.str "example") runs
    hsweep (by rw [lookup_cons_eq]; exact if_pos rfl) (rates_two R) ⟨_, rfl, rfl⟩ hruns hres (fun a b h => C57_names_distinct _ _ a b h) hR0 (by decide)
    rainChoice (exConfig_selects _ _) _ hprep hg hv _ hev (fun h => by cases h)
    (by
      intro o ho
      have := List.mem_map_of_mem (f := SweepRun.log) ho
      rw [hlogs] at this
      simp only [List.mem_cons, List.not_mem_nil, or_false] at this
      rcases this with e | e
      · rw [e]; exact b4 R
      · rw [e]; exact c4 R) hround templateRows rfl (by unfold templateRows; norm_num) "example" _ hout
  refine ⟨R, _, p1, _, l0, l1, hR0, hsweep, hout, rfl, ?_⟩
  simpa using hpw

end PyFlowGo
